import Verif.Props.Composite
/-
C64: two parties with mirrored contexts can talk for as long as there are sequence numbers.
-/
namespace Verif
open Verif

/-! ### specification -/

/-- an exchange that is not finished: token, resource, and whether it is an observation (RFC 7641) -/
abbrev Exch := Bytes × Bytes × Bool

/-- RFC 7641, 2: the message registers or cancels an observation -/
def observation (opts : List Opt) : Bool :=
  match (opts.find? (fun o => o.num == 6)).map Opt.value with
  | some v => v == [] || v == [0] || v == [1]
  | none => false

/-- The exchanges outstanding after `p`, `none` if `p` may not be sent: a request needs a token that is not in use
and one of `n` places, a request for a resource replaces an earlier one of its kind for the same resource; a
response needs an outstanding request with its token, and finishes the exchange unless it is a notification. -/
def outstandingAfter (n : Nat) (S : List Exch) (p : Pkt) : Option (List Exch) :=
  if isRequest p then
    let S' := S.filter (fun x => !(x.2.1 == Spec.uriPath p.opts && x.2.2 == observation p.opts))
    if S'.length < n ∧ p.token ∉ S'.map Prod.fst then some ((p.token, Spec.uriPath p.opts, observation p.opts) :: S')
    else none
  else if p.token ∈ S.map Prod.fst then
    if p.opts.any (fun o => o.num == 6) then some S else some (S.filter (fun x => x.1 != p.token))
  else none

/-- bytes of an extended delta or length (RFC 7252, 3.1) -/
def extBytes (n : Nat) : Nat := if n < 13 then 0 else if n < 269 then 1 else 2

/-- The message fits the configuration and the buffers: `capS` bytes for the protected message, `capR` for the
message at the receiver. -/
structure Sendable (cfg : Cfg) (p : Pkt) (capS capR : Nat) : Prop where
  car : Carriable cfg p
  notAck : ¬(p.type = 2 ∧ p.code = 0)
  token : p.token.length ≤ 8
  count : p.opts.length ≤ 20
  /-- taking the outer options out does not lengthen the encoding of an inner one -/
  same : (redelta 0 (innerOpts (isRequest p) p.opts)).map (fun o => extBytes o.delta) =
    (innerOpts (isRequest p) p.opts).map (fun o => extBytes o.delta)
  inner : (encOpts (redelta 0 (innerOpts (isRequest p) p.opts))).length ≤ cfg.eOptBuf
  plain : 2 + (encOpts (redelta 0 (innerOpts (isRequest p) p.opts))).length + p.payload.length ≤ cfg.maxPlaintext
  uri : Spec.uriPathRoom p.opts < cfg.uriMax
  /-- the outer options, with the OSCORE option (at most 23 bytes) -/
  outer : ((outerOpts p.opts).map (fun o => 5 + o.value.length)).sum + 28 ≤ cfg.maxCoapOptions
  /-- header, token, outer options, payload marker, code, inner options, payload marker, payload and tag -/
  out : 4 + p.token.length + (((outerOpts p.opts).map (fun o => 5 + o.value.length)).sum + 28) + 1 +
    (2 + (encOpts (redelta 0 (innerOpts (isRequest p) p.opts))).length + p.payload.length + 8) ≤ min capS 65535
  rcv : (encPkt p).length ≤ capR

/-- one message of a conversation: its sender, the CoAP message, the sizes of the output buffers -/
structure CMsg where
  fromA : Bool
  inp : Bytes
  capS : Nat
  capR : Nat

/-- every message of the conversation may be sent when its turn comes -/
def Proper (cfg : Cfg) : List Exch → List CMsg → Prop
  | _, [] => True
  | S, m :: ms => ∃ p, coapDeserialize m.inp = .ok p ∧ Sendable cfg p m.capS m.capR ∧
      ∃ S', outstandingAfter cfg.interactions S p = some S' ∧ Proper cfg S' ms

/-- protected by one party and handed to the other -/
def transfer (cfg : Cfg) (C : Crypto) (m : CMsg) (snd rcv : World) : R Bytes × World × World :=
  match step cfg C snd (.protect m.inp m.capS none) with
  | (.ok b, snd') => ((step cfg C rcv (.unprotect b m.capR)).1, snd', (step cfg C rcv (.unprotect b m.capR)).2)
  | (r, snd') => (r, snd', rcv)

/-- what the receivers of the messages get, one after the other -/
def converse (cfg : Cfg) (C : Crypto) : World → World → List CMsg → List (R Bytes)
  | _, _, [] => []
  | a, b, m :: ms =>
    if m.fromA then
      (transfer cfg C m a b).1 :: converse cfg C (transfer cfg C m a b).2.1 (transfer cfg C m a b).2.2 ms
    else
      (transfer cfg C m b a).1 :: converse cfg C (transfer cfg C m b a).2.2 (transfer cfg C m b a).2.1 ms

/-- the receiver gets the message (the Observe value of a notification is not carried, RFC 8613 4.1.3.5) -/
def Delivered (m : CMsg) (r : R Bytes) : Prop :=
  ∃ p, coapDeserialize m.inp = .ok p ∧
    r = .ok (encPkt { p with opts := p.opts.map (recovered (isRequest p)) }) ∧
    (isRequest p = true ∨ p.opts.any (fun o => o.num == 6) = false → r = .ok (encPkt p) ∧ coapDeserialize (encPkt p) = .ok p)

/-! ### the table of interactions -/

/-- what a record stands for -/
def recKey (r : Rec) : Exch := (r.token, r.uri, r.reqType == .registration)

/-- the table holds the outstanding exchanges -/
structure Tracks (n : Nat) (t : Table) (S : List Exch) : Prop where
  len : t.length = n
  distinct : Distinct t
  nodup : S.Nodup
  mem : ∀ x, x ∈ S ↔ ∃ r, some r ∈ t ∧ recKey r = x
  small : ∀ r, some r ∈ t → (r.reqType = .request ∨ r.reqType = .registration) ∧ r.piv.length ≤ 3 ∧ r.kid.length ≤ 4

theorem tracks_init (n : Nat) : Tracks n (Table.init n) [] := by
  have h : ∀ r, some r ∉ Table.init n := fun r hr => by
    unfold Table.init at hr; cases (List.mem_replicate.1 hr).2
  exact ⟨by simp [Table.init], distinct_init n, List.nodup_nil, fun x => Iff.intro (fun h => by cases h) (fun ⟨r, hr, _⟩ => absurd hr (h r)),
    fun r hr => absurd hr (h r)⟩

theorem length_le_of_subset {α : Type} [DecidableEq α] : ∀ {l m : List α}, l.Nodup → (∀ x ∈ l, x ∈ m) → l.length ≤ m.length
  | [], m, _, _ => Nat.zero_le _
  | a :: l, m, h, hs => by
    obtain ⟨h1, h2⟩ := List.nodup_cons.1 h
    have := length_le_of_subset (m := m.erase a) h2 fun x hx =>
      (List.mem_erase_of_ne (fun (e : x = a) => h1 (e ▸ hx))).2 (hs x (List.mem_cons_of_mem _ hx))
    have ha := hs a (List.mem_cons_self ..)
    rw [List.length_erase_of_mem ha] at this
    have := List.length_pos_of_mem ha
    rw [List.length_cons]; omega

theorem recKey_inj {r s : MsgType} (hr : r = .request ∨ r = .registration)
    (hs : s = .request ∨ s = .registration) (h : (r == .registration) = (s == .registration)) : r = s := by
  rcases hr with rfl | rfl <;> rcases hs with rfl | rfl <;> first | rfl | cases h

/-- a table without a free place holds as many exchanges as it has places -/
theorem Tracks.full {n : Nat} {t : Table} {S : List Exch} (h : Tracks n t S) (hf : none ∉ t) : n ≤ S.length := by
  have e : (t.filterMap (fun o => o.map recKey)).length = t.length := by
    have : ∀ l : Table, none ∉ l → (l.filterMap (fun o => o.map recKey)).length = l.length := by
      intro l hl
      induction l with
      | nil => rfl
      | cons a l ih =>
        cases a with
        | none => exact absurd (List.mem_cons_self ..) hl
        | some r => simp only [List.filterMap_cons, Option.map_some, List.length_cons]; rw [ih (fun hh => hl (List.mem_cons_of_mem _ hh))]
    exact this t hf
  rw [← h.len, ← e]
  apply length_le_of_subset
  · rw [List.nodup_iff_pairwise_ne, List.pairwise_filterMap, List.pairwise_iff_getElem]
    intro i j hi hj hij b hb b' hb' e
    cases h1 : t[i] with
    | none => rw [h1] at hb; cases hb
    | some r =>
      cases h2 : t[j] with
      | none => rw [h2] at hb'; cases hb'
      | some r' =>
        rw [h1] at hb; rw [h2] at hb'
        simp only [Option.map_some, Option.some.injEq] at hb hb'
        have := h.distinct.token i j r r' (by rw [List.getElem?_eq_getElem hi, h1]) (by rw [List.getElem?_eq_getElem hj, h2])
          (by rw [← hb, ← hb'] at e; exact congrArg Prod.fst e)
        omega
  · intro x hx
    obtain ⟨o, ho, hx⟩ := List.mem_filterMap.1 hx
    cases o with
    | none => cases hx
    | some r => simp only [Option.map_some, Option.some.injEq] at hx; exact (h.mem x).2 ⟨r, ho, hx⟩

theorem observation_type {p : Pkt} (h : isRequest p = true) :
    (if msgType p = .cancellation then MsgType.registration else msgType p) =
      if observation p.opts then .registration else .request := by
  have hg : (p.opts.find? (fun o => o.num == 6)).map Opt.value = getObserveValue p.opts := rfl
  have ho : observation p.opts = (match getObserveValue p.opts with
      | some v => v == [] || v == [0] || v == [1]
      | none => false) := by unfold observation; rw [hg]
  have hm : msgType p = (match getObserveValue p.opts with
      | none => .request
      | some v => match v with
        | [] => .registration
        | [b] => if b = 0 then .registration else if b = 1 then .cancellation else .request
        | _ => .request) := by
    unfold msgType; rw [h]; cases getObserveValue p.opts <;> rfl
  rw [ho, hm]
  cases getObserveValue p.opts with
  | none => rfl
  | some v =>
    match v with
    | [] => rfl
    | [b] =>
      by_cases h0 : b = 0
      · subst h0; rfl
      · by_cases h1 : b = 1
        · subst h1; rfl
        · simp [h0, h1]
    | _ :: _ :: _ => simp

theorem uriPath_length {opts : List Opt} {max : Nat} (h : Spec.uriPathRoom opts < max) : (Spec.uriPath opts).length ≤ max := by
  have hl := slashed_length opts
  unfold Spec.uriPath
  cases hs : (opts.filter (fun o => decide (o.num = 11))).map Opt.value with
  | nil => simp; omega
  | cons a l =>
    rw [hs] at hl
    show ([0x2F].intercalate (a :: l)).length ≤ max
    rw [← slashed_dropLast (a :: l) (by simp), List.length_dropLast, hl]
    omega

/-- a request that may be sent is entered into the table -/
theorem Tracks.request {cfg : Cfg} {n : Nat} {t : Table} {S S' : List Exch} {p : Pkt} (h : Tracks n t S) (hreq : isRequest p = true)
    (ho : outstandingAfter n S p = some S') (hu : Spec.uriPathRoom p.opts < cfg.uriMax) (hm : cfg.uriMax ≤ 255)
    (htok : p.token.length ≤ 8) {piv kid : Bytes} (hp : piv.length ≤ 3) (hk : kid.length ≤ 4) :
    ∃ t', updateWrapper cfg t (msgType p) p.token (Spec.uriPath p.opts) piv kid = .ok t' ∧ Tracks n t' S' := by
  have hul := uriPath_length hu
  unfold outstandingAfter at ho
  rw [if_pos hreq] at ho
  simp only at ho
  split at ho
  · rename_i hc
    obtain ⟨hlen, hnt⟩ := hc
    simp only [Option.some.injEq] at ho
    unfold updateWrapper
    simp only
    rw [observation_type hreq]
    generalize hty : (if observation p.opts = true then MsgType.registration else MsgType.request) = ty
    have htys : ty = .request ∨ ty = .registration := by rw [← hty]; cases observation p.opts <;> simp
    have htyo : (ty == .registration) = observation p.opts := by rw [← hty]; cases observation p.opts <;> rfl
    rw [if_pos htys, memcpyS_ok.2 ⟨rfl, by omega⟩, R.ok_bind, memcpyS_ok.2 ⟨rfl, by omega⟩, R.ok_bind,
      memcpyS_ok.2 ⟨rfl, htok⟩, R.ok_bind, memcpyS_ok.2 ⟨rfl, hul⟩, R.ok_bind,
      Nat.mod_eq_of_lt (by omega), List.take_length]
    -- records of the same resource and kind
    have hsame : ∀ s, some s ∈ t → (s.uri = Spec.uriPath p.opts ∧ s.reqType = ty ↔
        recKey s ∉ S.filter (fun x => !(x.2.1 == Spec.uriPath p.opts && x.2.2 == observation p.opts))) := by
      intro s hs
      rw [List.mem_filter, (h.mem _)]
      have hb : (recKey s).2.2 = observation p.opts ↔ s.reqType = ty := by
        rw [← htyo]
        constructor
        · intro e; exact recKey_inj (h.small s hs).1 htys e
        · intro e; unfold recKey; rw [e]
      constructor
      · rintro ⟨h1, h2⟩ ⟨-, h3⟩
        rw [Bool.not_eq_true', Bool.and_eq_false_iff] at h3
        rcases h3 with h3 | h3
        · simp only [recKey, beq_eq_false_iff_ne] at h3; exact h3 h1
        · rw [beq_eq_false_iff_ne] at h3; exact h3 (hb.2 h2)
      · intro h3
        have h4 : (!((recKey s).2.1 == Spec.uriPath p.opts && (recKey s).2.2 == observation p.opts)) ≠ true :=
          fun e => h3 ⟨⟨s, hs, rfl⟩, e⟩
        simp only [Bool.not_eq_true', Bool.not_eq_false, Bool.and_eq_true, beq_iff_eq, ne_eq] at h4
        exact ⟨h4.1, hb.1 h4.2⟩
    have hset : ∃ t', t.set cfg ⟨ty, piv, kid, p.token, Spec.uriPath p.opts⟩ = .ok t' := by
      unfold Table.set
      rw [if_neg (by simp only; omega)]
      simp only
      have htokS : ∀ s, some s ∈ t → s.token = p.token → s.uri = Spec.uriPath p.opts ∧ s.reqType = ty := by
        intro s hs e
        rw [hsame s hs]
        intro hh
        exact hnt (List.mem_map.2 ⟨_, hh, e⟩)
      by_cases hres : t.findRes (Spec.uriPath p.opts) ty < t.length
      · rw [if_neg (show ¬ t.findRes (Spec.uriPath p.opts) ty ≥ t.length by omega),
          if_neg (show ¬ t.findRes (Spec.uriPath p.opts) ty ≥ t.length by omega), if_neg]
        · exact ⟨_, rfl⟩
        · rintro ⟨h1, h2⟩
          obtain ⟨s, hs, hst⟩ := findTok_get h1
          obtain ⟨e1, e2⟩ := htokS s (mem_iff_get.2 ⟨_, hs⟩) hst
          obtain ⟨s', hs', e3, e4⟩ := findRes_get hres
          exact h2 (h.distinct.resource _ _ _ _ hs hs' (by rw [e1, e3]) (by rw [e2, e4]))
      · have hnone : ∀ s, some s ∈ t → ¬(s.uri = Spec.uriPath p.opts ∧ s.reqType = ty) := by
          intro s hs ⟨e1, e2⟩
          exact hres (findIdx_lt_of_mem hs (by simp [e1, e2]))
        have hfree : none ∈ t := by
          refine Classical.byContradiction fun hf => ?_
          have := h.full hf
          have e : S.filter (fun x => !(x.2.1 == Spec.uriPath p.opts && x.2.2 == observation p.opts)) = S := by
            rw [List.filter_eq_self]
            intro x hx
            obtain ⟨r, hr, rfl⟩ := (h.mem x).1 hx
            have := (not_congr (hsame r hr)).1 (hnone r hr)
            rw [Classical.not_not] at this
            exact (List.mem_filter.1 this).2
          rw [e] at hlen
          omega
        have hlt : t.findFree < t.length := findIdx_lt_of_mem hfree rfl
        have htf : t.findTok p.token = t.length := findTok_none fun s hs e => hnone s hs (htokS s hs e)
        rw [if_pos (show t.findRes (Spec.uriPath p.opts) ty ≥ t.length by omega), if_neg (show ¬ t.findFree ≥ t.length by omega),
          if_neg (by omega)]
        exact ⟨_, rfl⟩
    obtain ⟨t', ht'⟩ := hset
    refine ⟨t', ht', ?_⟩
    obtain ⟨d1, d2, d3⟩ := C29_set cfg t t' _ h.distinct ht'
    refine ⟨by rw [d2, h.len], d1, ?_, ?_, ?_⟩
    · rw [← ho, List.nodup_cons]
      exact ⟨fun hh => hnt (List.mem_map.2 ⟨_, hh, rfl⟩), h.nodup.filter _⟩
    · intro x
      rw [← ho, List.mem_cons]
      constructor
      · rintro (rfl | hx)
        · exact ⟨_, (d3 _).2 (.inl rfl), by unfold recKey; rw [htyo]⟩
        · obtain ⟨hx1, hx2⟩ := List.mem_filter.1 hx
          obtain ⟨r, hr, rfl⟩ := (h.mem x).1 hx1
          exact ⟨r, (d3 r).2 (.inr ⟨hr, fun e => (hsame r hr).1 e hx⟩), rfl⟩
      · rintro ⟨r, hr, rfl⟩
        rcases (d3 r).1 hr with rfl | ⟨hr, hn⟩
        · exact .inl (by unfold recKey; rw [htyo])
        · have := (not_congr (hsame r hr)).1 hn
          rw [Classical.not_not] at this
          exact .inr this
    · intro r hr
      rcases (d3 r).1 hr with rfl | ⟨hr, -⟩
      · exact ⟨htys, hp, hk⟩
      · exact h.small r hr
  · cases ho

/-- a response that may be sent finds its request, and finishes the exchange unless it is a notification -/
theorem Tracks.response {cfg : Cfg} {n : Nat} {t : Table} {S S' : List Exch} {p : Pkt} (h : Tracks n t S) (hrsp : isRequest p = false)
    (ho : outstandingAfter n S p = some S') (htok : p.token.length ≤ 8) :
    (∃ r, Outstanding t p.token r) ∧ ∀ uri piv kid, ∃ t', updateWrapper cfg t (msgType p) p.token uri piv kid = .ok t' ∧ Tracks n t' S' := by
  unfold outstandingAfter at ho
  rw [hrsp] at ho
  simp only [Bool.false_eq_true, if_false] at ho
  split at ho
  · rename_i hin
    obtain ⟨x, hx, hxt⟩ := List.mem_map.1 hin
    obtain ⟨r, hr, rfl⟩ := (h.mem x).1 hx
    have hout : ∃ r, Outstanding t p.token r := ⟨r, hr, hxt⟩
    refine ⟨hout, ?_⟩
    intro uri piv kid
    have hobs := isObserve_msgType hrsp
    have hob : isObserve p.opts = p.opts.any (fun o => o.num == 6) := rfl
    rw [hob] at hobs
    split at ho
    · rename_i hobv
      simp only [Option.some.injEq] at ho
      subst ho
      refine ⟨t, ?_, h⟩
      rw [hobs.1 hobv]
      unfold updateWrapper
      simp
    · rename_i hobv
      simp only [Option.some.injEq] at ho
      have hty : msgType p = .response := by
        rcases msgType_response hrsp with e | e
        · exact e
        · exact absurd (hobs.2 e) hobv
      obtain ⟨t', h1, h2, h3, h4⟩ := (C29_remove t p.token htok h.distinct).2 hout
      refine ⟨t', ?_, by rw [h3, h.len], h2, by rw [← ho]; exact h.nodup.filter _, ?_, ?_⟩
      · rw [hty]; unfold updateWrapper
        simp only [reduceCtorEq, if_false, or_self, if_true]
        exact h1
      · intro y
        rw [← ho, List.mem_filter, h.mem]
        constructor
        · rintro ⟨⟨s, hs, rfl⟩, hy⟩
          exact ⟨s, (h4 s).2 ⟨hs, by simpa [recKey] using hy⟩, rfl⟩
        · rintro ⟨s, hs, rfl⟩
          obtain ⟨a, b⟩ := (h4 s).1 hs
          exact ⟨⟨s, a, rfl⟩, by simpa [recKey] using b⟩
      · intro s hs
        exact h.small s ((h4 s).1 hs).1
  · cases ho

/-! ### a message that fits is protected -/

theorem extBytes_eq : extBytes = optExtraBytes := rfl

/-- the announced length of the inner options is exact -/
theorem inner_exact_same {req : Bool} {l : List Opt} {prev pr : Nat} (hs : Spec.sortedFrom pr l)
    (h : (redelta prev (innerOpts req l)).map (fun o => extBytes o.delta) = (innerOpts req l).map (fun o => extBytes o.delta)) :
    (encOpts (redelta prev (innerOpts req l))).length = eBytes req l := by
  rw [extBytes_eq] at h
  induction l generalizing prev pr with
  | nil => simp [innerOpts, redelta, encOpts, eBytes]
  | cons o l ih =>
    obtain ⟨h1, h2, h3, h4⟩ := hs
    rw [innerOpts_cons] at h ⊢
    unfold innerOf at h ⊢
    by_cases ho : o.num = optOBSERVE
    · rw [if_pos ho] at h ⊢
      simp only [Option.toList, List.singleton_append, redelta, List.map_cons, List.cons.injEq] at h
      have hd : optExtraBytes o.delta = 0 := by
        unfold optExtraBytes optOBSERVE at *
        rw [if_pos (by omega)]
      simp only [Option.toList, List.singleton_append, redelta, encOpts_cons_length,
        eBytes, if_pos ho, Opt.len, ih h4 h.2]
      rw [h.1, hd]
      cases req
      · simp [optExtraBytes]
      · simp
    · rw [if_neg ho] at h ⊢
      by_cases hc : isClassE o.num = true
      · rw [if_pos hc] at h ⊢
        simp only [Option.toList, List.singleton_append, redelta, List.map_cons, List.cons.injEq] at h
        simp only [Option.toList, List.singleton_append, redelta, encOpts_cons_length,
          eBytes, if_neg ho, if_pos hc, Opt.len, ih h4 h.2]
        rw [h.1]
      · rw [if_neg hc] at h ⊢
        simp only [Option.toList, List.nil_append] at h
        simp only [Option.toList, List.nil_append, eBytes, if_neg ho, if_neg hc, ih h4 h]
        simp

/-- the plaintext of a message that fits -/
theorem Sendable.plaintext {cfg : Cfg} {p : Pkt} {capS capR : Nat} (h : Sendable cfg p capS capR) :
    plaintextLen p (eBytes (isRequest p) p.opts % 65536) ≤ cfg.maxPlaintext ∧
    ∃ pt, plaintextSetup cfg p (redelta 0 (innerOpts (isRequest p) p.opts))
      (plaintextLen p (eBytes (isRequest p) p.opts % 65536)) = .ok pt ∧
      pt.length ≤ 2 + (encOpts (redelta 0 (innerOpts (isRequest p) p.opts))).length + p.payload.length := by
  have hex := inner_exact_same h.car.sorted h.same
  have hb := h.car.bufs
  have hin := h.inner
  have hpl := h.plain
  rw [← hex, Nat.mod_eq_of_lt (by omega)]
  generalize hE : encOpts (redelta 0 (innerOpts (isRequest p) p.opts)) = E at *
  unfold plaintextLen
  by_cases hp : p.payload.length = 0
  · rw [if_pos hp]
    refine ⟨by omega, p.code :: E, ?_, by simp; omega⟩
    unfold plaintextSetup
    rw [optionsSerialize_ok.2 ⟨rfl, by rw [hE]; exact hin⟩, R.ok_bind, hE, memcpyS_ok.2 ⟨rfl, by omega⟩, R.ok_bind, if_pos hp,
      if_neg (by omega)]
    rfl
  · rw [if_neg hp]
    refine ⟨by omega, p.code :: E ++ [0xFF] ++ p.payload, ?_, by simp; omega⟩
    unfold plaintextSetup
    rw [optionsSerialize_ok.2 ⟨rfl, by rw [hE]; exact hin⟩, R.ok_bind, hE, memcpyS_ok.2 ⟨rfl, by omega⟩, R.ok_bind, if_neg hp,
      if_neg (by omega), memcpyS_ok.2 ⟨rfl, by unfold sub32; omega⟩, R.ok_bind]
    simp only
    have hl : (p.code :: E ++ [0xFF] ++ p.payload).length = 1 + E.length + (1 + p.payload.length) := by simp; omega
    rw [hl, if_neg (by omega), if_neg (by omega), ← hl, List.take_length]
    rfl

/-- the encryption step succeeds when its parts do (response without a PIV of its own) -/
theorem encryptWrapper_reuse {cfg : Cfg} {C : Crypto} {pt : Bytes} {p : Pkt} {w : World} {rp rk aad ct uri : Bytes} {t : Table}
    (hn : needsNewPiv (msgType p) w.ctx.echo = false)
    (hread : readWrapper w.ctx.inter (msgType p) p.token (.ok ([], [])) = .ok (rp, rk))
    (haad : createAad rk rp = .ok aad) (hct : coseEncrypt C pt w.ctx.nonce aad w.ctx.senderKey = .ok ct)
    (huri : uriPathCreate p.opts cfg.uriMax = .ok uri)
    (hupd : updateWrapper cfg w.ctx.inter (msgType p) p.token uri rp rk = .ok t) :
    ∃ w', encryptWrapper cfg C none pt p w = (.ok (ct, []), w') := by
  have ho : oscoreOptionGenerate [] [] [] = .ok [] := rfl
  unfold encryptWrapper pickNonce
  simp only [M.bind_get, hn, Bool.false_eq_true, if_false, M.bind_assoc, M.bind_pure, ho, M.bind_lift_ok, hread, haad, hct, M.bind_modify,
    huri, hupd]
  exact ⟨_, rfl⟩

/-- IDs short enough for the library at every sequence number (C26) -/
structure IdsOk (c : Ctx) : Prop where
  id : c.senderId.length ≤ 4
  ctx : c.idContext.length ≤ 10
  iv : c.commonIv.length ≤ 13
  key : c.senderKey.length = 16

theorem encOpts_le (l : List Opt) : (encOpts l).length ≤ optBytesLen l := by
  induction l with
  | nil => exact Nat.le_refl _
  | cons o l ih =>
    rw [encOpts_cons_length]
    have e : optBytesLen (o :: l) = 5 + o.len + optBytesLen l := by simp [optBytesLen]
    have h : ∀ d, optExtraBytes d ≤ 2 := fun d => by unfold optExtraBytes; repeat' split
                                                     all_goals omega
    have := h o.delta
    have := h o.len
    omega

theorem optBytesLen_outerDeltas (prev : Nat) (l : List Opt) : optBytesLen (outerDeltas prev l) = optBytesLen l := by
  induction l generalizing prev with
  | nil => rfl
  | cons o l ih =>
    have e : ∀ (x : Opt) l, optBytesLen (x :: l) = 5 + x.len + optBytesLen l := fun x l => by simp [optBytesLen]
    rw [outerDeltas, e, e, ih]; rfl

theorem optBytesLen_append (l m : List Opt) : optBytesLen (l ++ m) = optBytesLen l + optBytesLen m := by
  simp [optBytesLen]

/-- the protected message fits -/
theorem Sendable.wire {cfg : Cfg} {p : Pkt} {capS capR : Nat} (hs : Sendable cfg p capS capR) {ct opt : Bytes} (ho : opt.length ≤ 23)
    (hc : ct.length ≤ 10 + (encOpts (redelta 0 (innerOpts (isRequest p) p.opts))).length + p.payload.length) :
    (encPkt (oscorePkgGenerate p (redelta 0 (outerOpts p.opts)) ct opt)).length ≤ capS ∧
    (encPkt (oscorePkgGenerate p (redelta 0 (outerOpts p.opts)) ct opt)).length < 65536 ∧
    optBytesLen (oscorePkgGenerate p (redelta 0 (outerOpts p.opts)) ct opt).opts ≤ cfg.maxCoapOptions := by
  have e : optBytesLen (outerOpts p.opts) = ((outerOpts p.opts).map (fun o => 5 + o.value.length)).sum := rfl
  have e1 : optBytesLen (oscorePkgGenerate p (redelta 0 (outerOpts p.opts)) ct opt).opts ≤ optBytesLen (outerOpts p.opts) + 28 := by
    show optBytesLen (outerDeltas 0 _) ≤ _
    rw [optBytesLen_outerDeltas, optBytesLen_append, optBytesLen_append]
    have h := congrArg optBytesLen (List.takeWhile_append_dropWhile (p := fun o : Opt => decide (o.num ≤ optOSCORE)) (l := redelta 0 (outerOpts p.opts)))
    rw [optBytesLen_append, optBytesLen_redelta] at h
    have h2 : optBytesLen [{ delta := 0, value := opt, num := optOSCORE }] ≤ 28 := by
      simp only [optBytesLen, List.map_cons, List.map_nil, List.sum_cons, List.sum_nil, Opt.len]; omega
    omega
  have e2 := encOpts_le (oscorePkgGenerate p (redelta 0 (outerOpts p.opts)) ct opt).opts
  have hh : ∀ q : Pkt, (encPkt q).length ≤ 4 + q.token.length + (encOpts q.opts).length + 1 + q.payload.length := by
    intro q
    unfold encPkt
    have hh : (coapHeaderBytes q).length = 4 := rfl
    simp only [List.length_append, hh]
    split <;> simp <;> omega
  have e3 := hh (oscorePkgGenerate p (redelta 0 (outerOpts p.opts)) ct opt)
  have e4 : (oscorePkgGenerate p (redelta 0 (outerOpts p.opts)) ct opt).payload = ct := rfl
  have e5 : (oscorePkgGenerate p (redelta 0 (outerOpts p.opts)) ct opt).token = p.token := rfl
  rw [e4, e5] at e3
  have h1 := hs.out
  have h2 := hs.outer
  rw [← e] at h1 h2
  omega

/-- the encryption step of a message that fits and may be sent succeeds, whatever the Echo state -/
theorem encrypt_succeeds {cfg : Cfg} {C : Crypto} (hC : C.Lawful) (ha : AeadTotal C) {capS capR : Nat} {w : World} {p : Pkt} {S S' : List Exch}
    {pt : Bytes} (hids : IdsOk w.ctx) (hssn : w.ctx.ssn < 0x7FFFFF) (hmax : cfg.uriMax ≤ 255)
    (hs : Sendable cfg p capS capR) (hnl : isRequest p = false → w.ctx.nonce.length = 13)
    (ht : Tracks cfg.interactions w.ctx.inter S) (ho : outstandingAfter cfg.interactions S p = some S') (hpt6 : pt.length < 65536) :
    ∃ ct opt w', encryptWrapper cfg C none pt p w = (.ok (ct, opt), w') ∧ opt.length ≤ 23 ∧ ct.length = pt.length + 8 := by
  have huri := (C33_uri_path_partial p.opts cfg.uriMax (by have := hs.uri; omega)).1 hs.uri
  have hcose : ∀ {rp rk nonce : Bytes}, nonce.length = 13 → rp.length ≤ 3 → rk.length ≤ 4 → ∃ aad ct, createAad rk rp = .ok aad ∧
      coseEncrypt C pt nonce aad w.ctx.senderKey = .ok ct := by
    intro rp rk nonce h0 h1 h2
    obtain ⟨a, hA⟩ := (C26_aad_iff (kid := rk) (piv := rp) (by omega) (by omega)).2 (by omega)
    obtain ⟨aad, haad, henc⟩ := R.bind_eq_ok.1 hA
    obtain ⟨ct, hct⟩ := Option.isSome_iff_exists.1 (ha w.ctx.senderKey nonce a pt hids.key h0 (encStructure_small henc) hpt6)
    exact ⟨aad, ct, haad, by unfold coseEncrypt; rw [henc, R.ok_bind]; unfold tagLen; rw [hct]; rfl⟩
  -- what the table says
  have hT : ∀ piv, piv.length ≤ 3 → ∃ rp rk t', readWrapper w.ctx.inter (msgType p) p.token (.ok (piv, w.ctx.senderId)) = .ok (rp, rk) ∧
      (readWrapper w.ctx.inter (msgType p) p.token (.ok ([], [])) = .ok (rp, rk) ∨ isRequest p = true) ∧
      rp.length ≤ 3 ∧ rk.length ≤ 4 ∧ updateWrapper cfg w.ctx.inter (msgType p) p.token (Spec.uriPath p.opts) rp rk = .ok t' := by
    intro piv hpv
    cases hr : isRequest p with
    | true =>
      obtain ⟨t', ht', -⟩ := ht.request (cfg := cfg) hr ho hs.uri hmax hs.token hpv hids.id
      refine ⟨piv, w.ctx.senderId, t', ?_, .inr rfl, hpv, hids.id, ht'⟩
      unfold readWrapper
      have := msgType_request hr
      rw [if_neg (fun e => e.elim this.1 this.2)]
    | false =>
      obtain ⟨⟨r, hr1⟩, h2⟩ := ht.response (cfg := cfg) hr ho hs.token
      obtain ⟨t', ht', -⟩ := h2 (Spec.uriPath p.opts) r.piv r.kid
      have hg := ((C29_get _ _ hs.token ht.distinct).1 r).2 hr1
      have hrd : ∀ x, readWrapper w.ctx.inter (msgType p) p.token x = .ok (r.piv, r.kid) := by
        intro x
        unfold readWrapper
        rw [if_pos (msgType_response hr), hg]; rfl
      have := ht.small r hr1.1
      exact ⟨r.piv, r.kid, t', hrd _, .inl (hrd _), this.2.1, this.2.2, ht'⟩
  cases hn : needsNewPiv (msgType p) w.ctx.echo with
  | true =>
    obtain ⟨piv, hpiv, hpl⟩ := ssn2piv_short (n := w.ctx.ssn) (by omega)
    obtain ⟨rp, rk, t', h1, -, h3, h4, h5⟩ := hT piv hpl
    obtain ⟨nonce, hnonce⟩ := createNonce_total (id := w.ctx.senderId) (piv := piv) (iv := w.ctx.commonIv)
      (by have := hids.id; omega) (by omega) hids.iv
    obtain ⟨aad, ct, haad, hct⟩ := hcose (nonce := nonce) (createNonce_length hnonce) h3 h4
    obtain ⟨opt, hopt, hol⟩ : ∃ opt, oscoreOptionGenerate piv w.ctx.senderId w.ctx.idContext = .ok opt ∧ opt.length ≤ 23 := by
      have hle : oscoreOptValLen piv.length w.ctx.senderId.length w.ctx.idContext.length ≤ 23 := by
        have := hids.id; have := hids.ctx
        unfold oscoreOptValLen; simp only; split <;> split <;> omega
      unfold oscoreOptionGenerate
      rw [checkBufferSize_ok (u := ()).2 hle, R.ok_bind]
      have := hids.id; have := hids.ctx
      split
      · exact ⟨[], rfl, by simp⟩
      · refine ⟨_, rfl, ?_⟩
        rw [List.length_cons, List.length_append, List.length_append]
        split <;> simp only [List.length_nil, List.length_cons] <;> omega
    obtain ⟨w', hw'⟩ := encryptWrapper_succeeds (pt := pt) hn hpiv hnonce hopt h1 haad hct huri h5
    exact ⟨ct, opt, w', hw', hol, (coseDecrypt_encrypt hC hct).2⟩
  | false =>
    obtain ⟨rp, rk, t', -, h2, h3, h4, h5⟩ := hT [] (by simp)
    have h2' : readWrapper w.ctx.inter (msgType p) p.token (.ok ([], [])) = .ok (rp, rk) := by
      rcases h2 with h2 | h2
      · exact h2
      · have := (msgType_request h2).1
        unfold needsNewPiv at hn
        simp only [Bool.or_eq_false_iff, bne_eq_false_iff_eq] at hn
        exact absurd hn.1 this
    have hrsp : isRequest p = false := by
      cases hr : isRequest p with
      | false => rfl
      | true =>
        have := (msgType_request hr).1
        unfold needsNewPiv at hn
        simp only [Bool.or_eq_false_iff, bne_eq_false_iff_eq] at hn
        exact absurd hn.1 this
    obtain ⟨aad, ct, haad, hct⟩ := hcose (nonce := w.ctx.nonce) (hnl hrsp) h3 h4
    obtain ⟨w', hw'⟩ := encryptWrapper_reuse (pt := pt) hn h2' haad hct huri h5
    exact ⟨ct, [], w', hw', by simp, (coseDecrypt_encrypt hC hct).2⟩

/-- a message that fits and may be sent is protected; a server that verifies the client's freshness needs an Echo
option whose value fits the buffer -/
theorem protect_succeeds_echo {cfg : Cfg} {C : Crypto} (hC : C.Lawful) (ha : AeadTotal C) {m : CMsg} {w : World} {p : Pkt} {S S' : List Exch}
    (hids : IdsOk w.ctx) (hssn : w.ctx.ssn < 0x7FFFFF) (hmax : cfg.uriMax ≤ 255)
    (hecho : w.ctx.echo = .verify → ∃ v, cacheEchoVal w.ctx.echoVal (redelta 0 (innerOpts (isRequest p) p.opts)) = .ok v)
    (hp : coapDeserialize m.inp = .ok p) (hs : Sendable cfg p m.capS m.capR) (hnl : isRequest p = false → w.ctx.nonce.length = 13)
    (ht : Tracks cfg.interactions w.ctx.inter S) (ho : outstandingAfter cfg.interactions S p = some S') :
    ∃ b w', coap2oscore cfg C none m.inp m.capS w = (.ok b, w') ∧ b.length < 65536 := by
  obtain ⟨hlen, pt, hpt, hptl⟩ := hs.plaintext
  have hpt6 : pt.length < 65536 := by have := hs.out; omega
  obtain ⟨w1, hc, h1, h2, h3, h4⟩ : ∃ w1, cacheEcho (redelta 0 (innerOpts (isRequest p) p.opts)) w = (.ok (), w1) ∧
      IdsOk w1.ctx ∧ w1.ctx.ssn = w.ctx.ssn ∧ w1.ctx.nonce = w.ctx.nonce ∧ w1.ctx.inter = w.ctx.inter := by
    unfold cacheEcho
    rw [M.bind_get]
    by_cases he : w.ctx.echo = .verify
    · obtain ⟨v, hv⟩ := hecho he
      rw [if_pos he, hv, M.bind_lift_ok]
      exact ⟨_, rfl, ⟨hids.id, hids.ctx, hids.iv, hids.key⟩, rfl, rfl, rfl⟩
    · rw [if_neg he]
      exact ⟨w, rfl, hids, rfl, rfl, rfl⟩
  obtain ⟨ct, opt, w', hw', hol, hcl⟩ := encrypt_succeeds hC ha (pt := pt) h1 (by omega) hmax hs (fun e => by rw [h3]; exact hnl e) (by rw [h4]; exact ht) ho hpt6
  obtain ⟨o1, o2, o3⟩ := hs.wire (ct := ct) (opt := opt) hol (by omega)
  refine ⟨encPkt (oscorePkgGenerate p (redelta 0 (outerOpts p.opts)) ct opt), w', ?_, o2⟩
  have hsplit : optionSplit p = .ok ⟨redelta 0 (innerOpts (isRequest p) p.opts), redelta 0 (outerOpts p.opts),
      eBytes (isRequest p) p.opts % 65536⟩ := by
    have hs' : optionSplit p = .ok (splitGo (isRequest p) 0 0 0 0 p.opts) := by
      unfold optionSplit maxOptionCount; rw [if_neg (by have := hs.count; omega)]
    rw [hs', (optionSplit_ok (coapDeserialize_wf hp).nums hs').2]
  unfold coap2oscore
  rw [M.bind_get]
  have hf : checkFreshness w.ctx = .ok () := by
    unfold checkFreshness ssnOverflow; rw [if_neg (by omega)]
  rw [hf, M.bind_lift_ok, hp, M.bind_lift_ok, if_neg hs.notAck]
  unfold protectPkt
  rw [hsplit, M.bind_lift_ok]
  simp only
  rw [checkBufferSize_ok (u := ()).2 hlen, M.bind_lift_ok, hpt, M.bind_lift_ok]
  rw [M.bind_ok hc, M.bind_ok hw', M.run_lift, coapSerialize_ok.2 ⟨rfl, o1, o3⟩]

/-- a message that fits and may be sent is protected -/
theorem protect_succeeds {cfg : Cfg} {C : Crypto} (hC : C.Lawful) (ha : AeadTotal C) {m : CMsg} {w : World} {p : Pkt} {S S' : List Exch}
    (hids : IdsOk w.ctx) (hssn : w.ctx.ssn < 0x7FFFFF) (hecho : w.ctx.echo = .synchronized) (hmax : cfg.uriMax ≤ 255)
    (hp : coapDeserialize m.inp = .ok p) (hs : Sendable cfg p m.capS m.capR) (hnl : isRequest p = false → w.ctx.nonce.length = 13)
    (ht : Tracks cfg.interactions w.ctx.inter S) (ho : outstandingAfter cfg.interactions S p = some S') :
    ∃ b w', coap2oscore cfg C none m.inp m.capS w = (.ok b, w') ∧ b.length < 65536 :=
  protect_succeeds_echo hC ha hids hssn hmax (fun e => by rw [hecho] at e; cases e) hp hs hnl ht ho

/-! ### the invariant of a conversation -/

/-- everything in the replay window is below `n` -/
structure WinBelow (w : ReplayWindow) (n : Nat) : Prop where
  below : ∀ x ∈ w.window, x < n ∨ x = 0
  zero : n = 0 → w.zeroReceived = false

theorem WinBelow.init (size : Nat) : WinBelow (ReplayWindow.init size) 0 :=
  ⟨fun _ hx => .inr (List.mem_replicate.1 hx).2, fun _ => rfl⟩

theorem WinBelow.wget {w : ReplayWindow} {n : Nat} (h : WinBelow w n) (i : Nat) : wget w.window i < n ∨ wget w.window i = 0 := by
  unfold Verif.wget
  rw [List.getD_eq_getElem?_getD]
  cases hi : w.window[i]? with
  | none => exact .inr rfl
  | some x => exact h.below x (List.mem_iff_getElem?.2 ⟨i, hi⟩)

theorem WinBelow.valid {w : ReplayWindow} {n : Nat} (h : WinBelow w n) : w.valid n = true := by
  unfold ReplayWindow.valid
  by_cases hn : n = 0
  · rw [if_pos hn, h.zero hn]
    have := h.wget 0
    simp only [Bool.not_false, Bool.true_and, beq_iff_eq]; omega
  · rw [if_neg hn, if_pos]
    have := h.wget (w.window.length - 1)
    omega

theorem WinBelow.update {w : ReplayWindow} {n x : Nat} (h : WinBelow w n) (hx : x ≤ n) : WinBelow (w.update x).2 (n + 1) := by
  have h' : WinBelow w (n + 1) := ⟨fun y hy => (h.below y hy).imp (by omega) id, by omega⟩
  unfold ReplayWindow.update
  split
  · exact h'
  · split
    · exact ⟨h'.below, by omega⟩
    · refine ⟨fun y hy => ?_, by omega⟩
      simp only [windowInsert, List.mem_append, List.mem_singleton] at hy
      rcases hy with (hy | hy) | hy
      · exact h'.below y (List.mem_of_mem_drop (List.mem_of_mem_take hy))
      · exact .inl (by omega)
      · exact h'.below y (List.mem_of_mem_drop hy)

theorem WinBelow.mono {w : ReplayWindow} {n m : Nat} (h : WinBelow w n) (hm : n ≤ m) : WinBelow w m :=
  ⟨fun y hy => (h.below y hy).imp (by omega) id, fun e => h.zero (by omega)⟩

/-- the contexts of two parties between two messages of a conversation -/
structure Conv (cfg : Cfg) (S : List Exch) (a b : Ctx) : Prop where
  ab : Mirror a b
  ba : Mirror b a
  idsA : IdsOk a
  idsB : IdsOk b
  syncA : a.echo = .synchronized
  syncB : b.echo = .synchronized
  inter : b.inter = a.inter
  track : Tracks cfg.interactions a.inter S
  winA : WinBelow a.window b.ssn
  winB : WinBelow b.window a.ssn
  nonce : S ≠ [] → a.nonce = b.nonce ∧ b.nonce.length = 13
  notifA : a.notifInit = true → a.notifNum < b.ssn
  notifB : b.notifInit = true → b.notifNum < a.ssn

theorem Conv.swap {cfg : Cfg} {S : List Exch} {a b : Ctx} (h : Conv cfg S a b) : Conv cfg S b a :=
  ⟨h.ba, h.ab, h.idsB, h.idsA, h.syncB, h.syncA, h.inter.symm, by rw [h.inter]; exact h.track, h.winB, h.winA,
    fun e => ⟨(h.nonce e).1.symm, by rw [(h.nonce e).1]; exact (h.nonce e).2⟩, h.notifB, h.notifA⟩

theorem encOpts_recovered (req : Bool) (l : List Opt) : (encOpts (l.map (recovered req))).length ≤ (encOpts l).length := by
  induction l with
  | nil => exact Nat.le_refl _
  | cons o l ih =>
    rw [List.map_cons, encOpts_cons_length, encOpts_cons_length]
    have e : (recovered req o).delta = o.delta := recovered_delta req o
    have e2 : (recovered req o).len = o.len ∨ (recovered req o).len = 0 := by
      unfold recovered
      split
      · exact .inr rfl
      · exact .inl rfl
    have : optExtraBytes 0 = 0 := rfl
    rw [e]
    rcases e2 with e2 | e2 <;> rw [e2] <;> omega

theorem encPkt_recovered (req : Bool) (p : Pkt) :
    (encPkt { p with opts := p.opts.map (recovered req) }).length ≤ (encPkt p).length := by
  have := encOpts_recovered req p.opts
  unfold encPkt
  simp only [List.length_append]
  have e : (coapHeaderBytes { p with opts := p.opts.map (recovered req) }).length = (coapHeaderBytes p).length := rfl
  rw [e]
  omega

theorem beVal_head_le (y : UInt8) (l : Bytes) : y.toNat ≤ beVal (y :: l) := by
  have : beVal ([y] ++ l) = beVal [y] * 256 ^ l.length + beVal l := beVal_append _ _
  have e : beVal [y] = y.toNat := by simp [beVal]
  rw [show y :: l = [y] ++ l from rfl, this, e]
  have : 0 < 256 ^ l.length := Nat.pow_pos (by decide)
  have := Nat.le_mul_of_pos_right y.toNat this
  omega

/-- one message of a conversation -/
theorem conv_transfer {cfg : Cfg} {C : Crypto} (hC : C.Lawful) (ha : AeadTotal C) (hmax : cfg.uriMax ≤ 255) {m : CMsg} {a b : World}
    {S S' : List Exch} {p : Pkt} (h : Conv cfg S a.ctx b.ctx) (hA : a.ctx.ssn < 0x7FFFFF) (hB : b.ctx.ssn < 0x7FFFFF)
    (hp : coapDeserialize m.inp = .ok p) (hs : Sendable cfg p m.capS m.capR)
    (ho : outstandingAfter cfg.interactions S p = some S') :
    Delivered m (transfer cfg C m a b).1 ∧ Conv cfg S' (transfer cfg C m a b).2.1.ctx (transfer cfg C m a b).2.2.ctx ∧
      (transfer cfg C m a b).2.1.ctx.ssn ≤ a.ctx.ssn + 1 ∧ (transfer cfg C m a b).2.2.ctx.ssn = b.ctx.ssn := by
  have hout13 : isRequest p = false → a.ctx.nonce.length = 13 := by
    intro hr
    obtain ⟨⟨r, hor⟩, -⟩ := h.track.response (cfg := cfg) hr ho hs.token
    have hS : S ≠ [] := by
      rintro rfl
      cases (h.track.mem _).2 ⟨r, hor.1, rfl⟩
    rw [(h.nonce hS).1]; exact (h.nonce hS).2
  obtain ⟨x, a', hsend, hxl⟩ := protect_succeeds hC ha h.idsA hA h.syncA hmax hp hs hout13 h.track ho
  obtain ⟨v, hv⟩ := protect_ok hsend hp hs.notAck
  have h13 : a'.ctx.nonce.length = 13 := by
    rw [hv.nonce']
    cases hn : v.new with
    | true => exact createNonce_length (hv.ifNew hn).2.2.2.1
    | false =>
      rw [(hv.ifReuse hn).2.2.2.1]
      refine hout13 ?_
      cases hr : isRequest p with
      | false => rfl
      | true =>
        have := (msgType_request hr).1
        have hn' := hv.new.symm.trans hn
        unfold needsNewPiv at hn'
        simp only [Bool.or_eq_false_iff, bne_eq_false_iff_eq] at hn'
        exact absurd hn'.1 this
  have hfr := coap2oscore_frame cfg C none m.inp m.capS a
  rw [hsend] at hfr
  simp only at hfr
  have hself : coapDeserialize (encPkt p) = .ok p := deserialize_encPkt (hs.car.pktOk hv.range) hs.car.small
  have htr : transfer cfg C m a b = ((oscore2coap cfg C x m.capR b.ctx).1, a', { b with ctx := (oscore2coap cfg C x m.capR b.ctx).2 }) := by
    unfold transfer
    simp only [step, hsend]
  rw [htr]
  simp only
  cases hr : isRequest p with
  | true =>
    obtain ⟨out, srv', h1, h2, h3, h4, uri, rp, rk, y, l, -, h5, h6, h7, h8, h9, h10, h11, h12⟩ :=
      request_recovered_full cfg C hC none m.inp x m.capS m.capR a a' b.ctx p hsend hp hr hs.notAck hs.car hxl h.ab hB h.syncB
        h.winB.valid (fun uri rp rk t ht => ⟨t, by rw [h.inter]; exact ht⟩) hs.rcv
    rw [h1]
    simp only
    have hpl : rp.length ≤ 3 := by
      obtain ⟨q, hq, hql⟩ := ssn2piv_short (n := a.ctx.ssn) (by omega)
      rw [hq] at h10
      simp only [R.ok.injEq] at h10
      rw [← h10]; exact hql
    have huri := (C33_uri_path_partial p.opts cfg.uriMax (by have := hs.uri; omega)).1 hs.uri
    rw [huri] at h7
    simp only [R.ok.injEq] at h7
    subst h7
    obtain ⟨t', ht', htrk⟩ := h.track.request (cfg := cfg) hr ho hs.uri hmax hs.token hpl (show rk.length ≤ 4 by rw [h8]; exact h.idsA.id)
    rw [h6] at ht'
    simp only [R.ok.injEq] at ht'
    rw [h.inter, h6] at h5
    simp only [R.ok.injEq] at h5
    have hy : y.toNat ≤ a.ctx.ssn := by
      have hval := (ssn2piv_minimal h10).1.1
      rw [h9] at hval
      rw [← hval]; exact beVal_head_le y l
    refine ⟨⟨p, hp, ?_, fun _ => ⟨by rw [h2], hself⟩⟩, ?_, by omega, by rw [h11]⟩
    · rw [h2, hr, recovered_true]
    · rw [h11]
      exact ⟨⟨by rw [hfr.senderId]; exact h.ab.id, by rw [hfr.senderKey]; exact h.ab.key, by rw [hfr.commonIv]; exact h.ab.iv⟩,
        ⟨by rw [hfr.recipientId]; exact h.ba.id, by rw [hfr.recipientKey]; exact h.ba.key, by rw [hfr.commonIv]; exact h.ba.iv⟩,
        ⟨by rw [hfr.senderId]; exact h.idsA.id, by rw [hfr.idContext]; exact h.idsA.ctx, by rw [hfr.commonIv]; exact h.idsA.iv, by rw [hfr.senderKey]; exact h.idsA.key⟩,
        ⟨h.idsB.id, h.idsB.ctx, h.idsB.iv, h.idsB.key⟩, by rw [hfr.echo]; exact h.syncA, h.syncB, h5.symm, by rw [ht']; exact htrk,
        by rw [hfr.window]; exact h.winA, by rw [h12]; exact h.winB.update hy, fun _ => ⟨rfl, h13⟩,
        by rw [hfr.notifInit, hfr.notifNum]; exact h.notifA, fun e => by rw [h12]; exact Nat.lt_succ_of_lt (h.notifB e)⟩
  | false =>
    obtain ⟨hout, hupd⟩ := h.track.response (cfg := cfg) hr ho hs.token
    obtain ⟨r, hor⟩ := hout
    have hS : S ≠ [] := by
      rintro rfl
      cases (h.track.mem _).2 ⟨r, hor.1, rfl⟩
    obtain ⟨cl', h1, -, -, uri, rp, rk, h2, h3, h4, h5, h6⟩ :=
      response_recovered cfg C hC none m.inp x m.capS m.capR a a' b.ctx p hsend hp hr hs.car hxl h.ab hB h.track.distinct
        (by rw [h.inter]; exact h.track.distinct) ⟨r, r, hor, by rw [h.inter]; exact hor, rfl, rfl⟩ (.inr (.inr (h.nonce hS).1.symm))
        (fun _ e => h.notifB e) (Nat.le_trans (encPkt_recovered false p) hs.rcv)
    rw [h1]
    simp only
    obtain ⟨t', ht', htrk⟩ := hupd uri rp rk
    rw [h3] at ht'
    simp only [R.ok.injEq] at ht'
    rw [h.inter, h3] at h2
    simp only [R.ok.injEq] at h2
    have hob : isObserve p.opts = p.opts.any (fun o => o.num == 6) := rfl
    refine ⟨⟨p, hp, by rw [hr]; rfl, fun e => ?_⟩, ?_, by omega, ?_⟩
    · rcases e with e | e
      · rw [hr] at e; cases e
      · rw [receivedResponse_eq (fun o hom e6 => ?_)]
        · exact ⟨rfl, hself⟩
        · exfalso
          rw [List.any_eq_false] at e
          exact e o hom (by simp [e6])
    · have hM : Mirror a'.ctx b.ctx := ⟨by rw [hfr.senderId]; exact h.ab.id, by rw [hfr.senderKey]; exact h.ab.key, by rw [hfr.commonIv]; exact h.ab.iv⟩
      have hM' : Mirror b.ctx a'.ctx := ⟨by rw [hfr.recipientId]; exact h.ba.id, by rw [hfr.recipientKey]; exact h.ba.key, by rw [hfr.commonIv]; exact h.ba.iv⟩
      have hI : IdsOk a'.ctx := ⟨by rw [hfr.senderId]; exact h.idsA.id, by rw [hfr.idContext]; exact h.idsA.ctx, by rw [hfr.commonIv]; exact h.idsA.iv, by rw [hfr.senderKey]; exact h.idsA.key⟩
      cases hobs : isObserve p.opts with
      | false =>
        rw [h5 hobs]
        exact ⟨⟨hM.id, hM.key, hM.iv⟩, ⟨hM'.id, hM'.key, hM'.iv⟩, hI, ⟨h.idsB.id, h.idsB.ctx, h.idsB.iv, h.idsB.key⟩, by rw [hfr.echo]; exact h.syncA,
          h.syncB, h2.symm, by rw [ht']; exact htrk, by rw [hfr.window]; exact h.winA, h.winB.mono (by omega), fun _ => ⟨rfl, h13⟩,
          by rw [hfr.notifInit, hfr.notifNum]; exact h.notifA, fun e => by have := h.notifB e; simp only; omega⟩
      | true =>
        obtain ⟨h7, h8⟩ := h6 hobs
        rw [h8] at h2 ⊢
        exact ⟨⟨hM.id, hM.key, hM.iv⟩, ⟨hM'.id, hM'.key, hM'.iv⟩, hI, ⟨h.idsB.id, h.idsB.ctx, h.idsB.iv, h.idsB.key⟩, by rw [hfr.echo]; exact h.syncA,
          h.syncB, h2.symm, by rw [ht']; exact htrk, by rw [hfr.window]; exact h.winA, h.winB.mono (by omega), fun _ => ⟨rfl, h13⟩,
          by rw [hfr.notifInit, hfr.notifNum]; exact h.notifA, fun e => by simp only; omega⟩
    · cases hobs : isObserve p.opts with
      | false => rw [h5 hobs]
      | true => rw [(h6 hobs).2]

/-! ### the theorems -/

theorem converse_delivered {cfg : Cfg} {C : Crypto} (hC : C.Lawful) (ha : AeadTotal C) (hmax : cfg.uriMax ≤ 255) (ms : List CMsg) :
    ∀ (S : List Exch) (a b : World), Conv cfg S a.ctx b.ctx → Proper cfg S ms →
      a.ctx.ssn + ms.length ≤ 0x7FFFFF → b.ctx.ssn + ms.length ≤ 0x7FFFFF →
      (converse cfg C a b ms).length = ms.length ∧ ∀ x ∈ ms.zip (converse cfg C a b ms), Delivered x.1 x.2 := by
  induction ms with
  | nil => intro S a b _ _ _ _; exact ⟨rfl, fun x hx => by cases hx⟩
  | cons m ms ih =>
    intro S a b h hp hA hB
    obtain ⟨p, hp1, hs, S', ho, hp'⟩ := hp
    rw [List.length_cons] at hA hB
    unfold converse
    cases hf : m.fromA with
    | true =>
      simp only [if_true]
      obtain ⟨h1, h2, h3, h4⟩ := conv_transfer hC ha hmax h (by omega) (by omega) hp1 hs ho
      obtain ⟨i1, i2⟩ := ih S' _ _ h2 hp' (by omega) (by omega)
      refine ⟨by rw [List.length_cons, List.length_cons, i1], ?_⟩
      rw [List.zip_cons_cons]
      rintro x hx
      rcases List.mem_cons.1 hx with rfl | hx
      · exact h1
      · exact i2 x hx
    | false =>
      simp only [Bool.false_eq_true, if_false]
      obtain ⟨h1, h2, h3, h4⟩ := conv_transfer hC ha hmax h.swap (by omega) (by omega) hp1 hs ho
      obtain ⟨i1, i2⟩ := ih S' _ _ h2.swap hp' (by omega) (by omega)
      refine ⟨by rw [List.length_cons, List.length_cons, i1], ?_⟩
      rw [List.zip_cons_cons]
      rintro x hx
      rcases List.mem_cons.1 hx with rfl | hx
      · exact h1
      · exact i2 x hx

theorem conv_of_pair {cfg : Cfg} {a b : Ctx} (P : Edhoc.Pair cfg a b) (iA : IdsOk a) (iB : IdsOk b) : Conv cfg [] a b :=
  ⟨P.ab, P.ba, iA, iB, P.syncA, P.syncB, by rw [P.interA, P.interB], by rw [P.interA]; exact tracks_init _,
    by rw [P.winA, P.ssnB]; exact .init _, by rw [P.winB, P.ssnA]; exact .init _, fun h => (h rfl).elim,
    fun h => (Bool.false_ne_true (P.notifA ▸ h)).elim, fun h => (Bool.false_ne_true (P.notifB ▸ h)).elim⟩

theorem idsOk_of_params {cfg : Cfg} {C : Crypto} (hC : C.Lawful) (hinfo : 50 ≤ cfg.infoMax) {p : InitParams} {nv : R Nat}
    {jn je : Bytes} {a : Ctx} (ha : contextInit cfg C p nv jn je = .ok a) (h1 : p.senderId.length ≤ 4)
    (h2 : p.idContext.length ≤ 10) : IdsOk a := by
  have h3 := (C28_keys hC hinfo ha).2.2
  have h4 : a.senderKey.length = 16 := by
    rw [(C28_keys hC hinfo ha).1]
    exact C37_length hC _ _ _
  obtain ⟨iv, rk, ssn, sk, _, _, _, _, _, _, _, rfl⟩ := contextInit_ok ha
  refine ⟨h1, h2, ?_, h4⟩
  rw [h3]
  unfold rfc8613Kdf Hkdf.expand
  rw [List.length_take]
  exact Nat.min_le_left _ _

/-- **C64** Two parties with contexts of mirrored parameters talk to each other: any sequence of requests,
responses, observations and notifications, from either side and in any order, of which every message may be sent
when its turn comes, and every message of which is delivered before the next is sent.  Then every message is
protected, and the other side gets it.  The conversation may be as long as there are sequence numbers.

`_partial`: messages of `Sendable` (what the library can carry, C22, and the buffers), IDs of at most 4 bytes
(C26), and the conversation is in lock-step: see C64_false_lost, C23_false_interleaved. -/
theorem C64_partial {cfg : Cfg} {C : Crypto} (hC : C.Lawful) (haead : AeadTotal C) (hmax : cfg.uriMax ≤ 255) (hinfo : 50 ≤ cfg.infoMax)
    {p q : InitParams} (hm : MirroredParams p q) (hpf : p.fresh = true) (hqf : q.fresh = true)
    (h1 : p.senderId.length ≤ 4) (h2 : p.recipientId.length ≤ 4) (h3 : p.idContext.length ≤ 10)
    {nv nv' : R Nat} {jn je jn' je' : Bytes} {a b : Ctx}
    (ha : contextInit cfg C p nv jn je = .ok a) (hb : contextInit cfg C q nv' jn' je' = .ok b)
    (nvmA nvmB : Nat) (logA logB : List EncCall)
    (ms : List CMsg) (hp : Proper cfg [] ms) (hl : ms.length ≤ 0x7FFFFF) :
    (converse cfg C ⟨a, nvmA, logA⟩ ⟨b, nvmB, logB⟩ ms).length = ms.length ∧
      ∀ x ∈ ms.zip (converse cfg C ⟨a, nvmA, logA⟩ ⟨b, nvmB, logB⟩ ms), Delivered x.1 x.2 := by
  have P := Edhoc.pair_of_params hm hpf hqf ha hb
  have hcv := conv_of_pair P (idsOk_of_params hC hinfo ha h1 h3)
    (idsOk_of_params hC hinfo hb (by rw [hm.sender]; exact h2) (by rw [hm.idContext]; exact h3))
  exact converse_delivered hC haead hmax ms [] _ _ hcv hp (by simp only [P.ssnA]; omega) (by simp only [P.ssnB]; omega)

/-- **C64** after EDHOC: the same over the contexts of an honest EDHOC run (C57). -/
theorem C64_edhoc_partial {S : Edhoc.Setup} {A : Edhoc.Agreed} (H : S.Honest A)
    (hm4 : S.cfgI.message4 = false ∧ S.cfgR.message4 = false) (hcI : Edhoc.cIStored S.i.cI = S.i.cI)
    (hid : S.i.cI.length ≤ 4 ∧ S.r.cR.length ≤ 4) (idContext : Bytes) (hctx : idContext.length ≤ 10)
    (haead : AeadTotal S.C.toCrypto) :
    ∃ m1 m2 m3 oI oR nI nR prk p q,
      Edhoc.initiatorRun S.cfgI S.C S.i S.credsR S.crBuf S.L (Edhoc.netOf [m2]) = (.ok oI, nI) ∧ nI.sent = [m1, m3] ∧
      Edhoc.responderRun S.cfgR S.C S.r S.credsI S.cICap S.L (Edhoc.netOf [m1, m3]) = (.ok oR, nR) ∧ nR.sent = [m2] ∧
      oI.prkOut = some prk ∧
      Edhoc.oscoreParams S.cfgI S.C prk oI.cR S.i.cI idContext = .ok p ∧
      Edhoc.oscoreParams S.cfgR S.C oR.prkOut oR.cI S.r.cR idContext = .ok q ∧
      ∀ (cfg : Cfg) (nv nv' : R Nat) (jn je jn' je' : Bytes), 0 < cfg.interactions → 50 ≤ cfg.infoMax → cfg.uriMax ≤ 255 →
        ∃ a b, contextInit cfg S.C.toCrypto p nv jn je = .ok a ∧ contextInit cfg S.C.toCrypto q nv' jn' je' = .ok b ∧
          ∀ ms, Proper cfg [] ms → ms.length ≤ 0x7FFFFF →
            (converse cfg S.C.toCrypto ⟨a, 0, []⟩ ⟨b, 0, []⟩ ms).length = ms.length ∧
            ∀ x ∈ ms.zip (converse cfg S.C.toCrypto ⟨a, 0, []⟩ ⟨b, 0, []⟩ ms), Delivered x.1 x.2 := by
  obtain ⟨m1, m2, m3, oI, oR, nI, nR, prk, p, q, h1, h2, h3, h4, h5, h6, h7, h8, h9⟩ :=
    Edhoc.C57_partial H hm4 hcI ⟨by omega, by omega⟩ idContext (by omega)
  refine ⟨m1, m2, m3, oI, oR, nI, nR, prk, p, q, h1, h2, h3, h4, h5, h6, h7, ?_⟩
  intro cfg nv nv' jn je jn' je' hroom hinfo hmax
  obtain ⟨a, b, ha, hb, -⟩ := h9 cfg nv nv' jn je jn' je' hroom hinfo
  refine ⟨a, b, ha, hb, fun ms hp hl => ?_⟩
  have e1 := Edhoc.oscoreParams_rfc (cfg := S.cfgI) H.lawful prk oI.cR S.i.cI idContext
  have e2 := Edhoc.oscoreParams_rfc (cfg := S.cfgR) H.lawful oR.prkOut oR.cI S.r.cR idContext
  rw [h6] at e1
  rw [h7] at e2
  have e1 := R.ok.inj e1
  have e2 := R.ok.inj e2
  refine C64_partial H.lawful.base haead hmax hinfo h8 (by rw [e1]) (by rw [e2]) ?_ (by rw [e1]; exact hid.1) (by rw [e1]; exact hctx) ha hb 0 0 [] [] ms hp hl
  rw [← h8.recipient, e2]; exact hid.2

/-- **C64** after EDHOC with message_4 -/
theorem C64_edhoc_message_4_partial {S : Edhoc.Setup} {A : Edhoc.Agreed} (H : S.Honest A)
    (hm4 : S.cfgI.message4 = true ∧ S.cfgR.message4 = true) (he : S.r.ead4 = [])
    (ht : A.suite.aead.tagLen ≤ S.cfgI.eadSize + 8 ∧ A.suite.aead.tagLen ≤ S.cfgR.eadSize + 8) (hcI : Edhoc.cIStored S.i.cI = S.i.cI)
    (hid : S.i.cI.length ≤ 4 ∧ S.r.cR.length ≤ 4) (idContext : Bytes) (hctx : idContext.length ≤ 10)
    (haead : AeadTotal S.C.toCrypto) :
    ∃ m1 m2 m3 m4 oI oR nI nR prk p q,
      Edhoc.initiatorRun S.cfgI S.C S.i S.credsR S.crBuf S.L (Edhoc.netOf [m2, m4]) = (.ok oI, nI) ∧ nI.sent = [m1, m3] ∧
      Edhoc.responderRun S.cfgR S.C S.r S.credsI S.cICap S.L (Edhoc.netOf [m1, m3]) = (.ok oR, nR) ∧ nR.sent = [m2, m4] ∧
      oI.prkOut = some prk ∧
      Edhoc.oscoreParams S.cfgI S.C prk oI.cR S.i.cI idContext = .ok p ∧
      Edhoc.oscoreParams S.cfgR S.C oR.prkOut oR.cI S.r.cR idContext = .ok q ∧
      ∀ (cfg : Cfg) (nv nv' : R Nat) (jn je jn' je' : Bytes), 0 < cfg.interactions → 50 ≤ cfg.infoMax → cfg.uriMax ≤ 255 →
        ∃ a b, contextInit cfg S.C.toCrypto p nv jn je = .ok a ∧ contextInit cfg S.C.toCrypto q nv' jn' je' = .ok b ∧
          ∀ ms, Proper cfg [] ms → ms.length ≤ 0x7FFFFF →
            (converse cfg S.C.toCrypto ⟨a, 0, []⟩ ⟨b, 0, []⟩ ms).length = ms.length ∧
            ∀ x ∈ ms.zip (converse cfg S.C.toCrypto ⟨a, 0, []⟩ ⟨b, 0, []⟩ ms), Delivered x.1 x.2 := by
  obtain ⟨m1, m2, m3, m4, oI, oR, nI, nR, prk, p, q, h1, h2, h3, h4, h5, h6, h7, h8, h9⟩ :=
    Edhoc.C57_message_4_partial H hm4 he ht hcI ⟨by omega, by omega⟩ idContext (by omega)
  refine ⟨m1, m2, m3, m4, oI, oR, nI, nR, prk, p, q, h1, h2, h3, h4, h5, h6, h7, ?_⟩
  intro cfg nv nv' jn je jn' je' hroom hinfo hmax
  obtain ⟨a, b, ha, hb, -⟩ := h9 cfg nv nv' jn je jn' je' hroom hinfo
  refine ⟨a, b, ha, hb, fun ms hp hl => ?_⟩
  have e1 := Edhoc.oscoreParams_rfc (cfg := S.cfgI) H.lawful prk oI.cR S.i.cI idContext
  have e2 := Edhoc.oscoreParams_rfc (cfg := S.cfgR) H.lawful oR.prkOut oR.cI S.r.cR idContext
  rw [h6] at e1
  rw [h7] at e2
  have e1 := R.ok.inj e1
  have e2 := R.ok.inj e2
  refine C64_partial H.lawful.base haead hmax hinfo h8 (by rw [e1]) (by rw [e2]) ?_ (by rw [e1]; exact hid.1) (by rw [e1]; exact hctx) ha hb 0 0 [] [] ms hp hl
  rw [← h8.recipient, e2]; exact hid.2

/-! ### lost responses -/

/-- the requests of a client that were protected -/
def accepted (cfg : Cfg) (C : Crypto) : World → List (Bytes × Nat) → List Pkt
  | _, [] => []
  | w, x :: xs =>
    match (step cfg C w (.protect x.1 x.2 none)).1, coapDeserialize x.1 with
    | .ok _, .ok p => p :: accepted cfg C (step cfg C w (.protect x.1 x.2 none)).2 xs
    | _, _ => accepted cfg C (step cfg C w (.protect x.1 x.2 none)).2 xs

/-- a resource and the kind of a request for it -/
def resource (p : Pkt) : Bytes × Bool := (Spec.uriPath p.opts, observation p.opts)

def recRes (r : Rec) : Bytes × Bool := (r.uri, r.reqType == .registration)

def HasRes (t : Table) (k : Bytes × Bool) : Prop := ∃ r, some r ∈ t ∧ recRes r = k

theorem hasRes_update {cfg : Cfg} {t t' : Table} {p : Pkt} {rp rk uri : Bytes} (hd : Distinct t) (hreq : isRequest p = true)
    (hu : Spec.uriPathRoom p.opts < cfg.uriMax) (hmax : cfg.uriMax ≤ 255) (huri : uriPathCreate p.opts cfg.uriMax = .ok uri)
    (h : updateWrapper cfg t (msgType p) p.token uri rp rk = .ok t') :
    HasRes t' (resource p) ∧ ∀ k, HasRes t k → HasRes t' k := by
  have e := (C33_uri_path_partial p.opts cfg.uriMax (by omega)).1 hu
  rw [huri] at e
  obtain rfl := R.ok.inj e
  have hul := uriPath_length hu
  unfold updateWrapper at h
  simp only at h
  rw [observation_type hreq] at h
  generalize hty : (if observation p.opts = true then MsgType.registration else MsgType.request) = ty at h
  have htys : ty = .request ∨ ty = .registration := by rw [← hty]; cases observation p.opts <;> simp
  have htyo : (ty == .registration) = observation p.opts := by rw [← hty]; cases observation p.opts <;> rfl
  rw [if_pos htys] at h
  obtain ⟨a, h1, h⟩ := R.bind_eq_ok.1 h
  obtain ⟨b, h2, h⟩ := R.bind_eq_ok.1 h
  obtain ⟨c, h3, h⟩ := R.bind_eq_ok.1 h
  obtain ⟨d, h4, h⟩ := R.bind_eq_ok.1 h
  obtain ⟨h4, -⟩ := memcpyS_ok.1 h4
  have e : d.take (d.length % 256) = Spec.uriPath p.opts := by
    rw [h4, Nat.mod_eq_of_lt (by omega), List.take_length]
  obtain ⟨-, -, d3⟩ := C29_set cfg t t' _ hd h
  constructor
  · exact ⟨_, (d3 _).2 (.inl rfl), by simp only [recRes, resource, e, htyo]⟩
  · rintro k ⟨r, hr, rfl⟩
    by_cases hs : r.uri = d.take (d.length % 256) ∧ r.reqType = ty
    · exact ⟨_, (d3 _).2 (.inl rfl), by simp only [recRes]; rw [hs.1, hs.2]⟩
    · exact ⟨r, (d3 _).2 (.inr ⟨hr, hs⟩), rfl⟩

theorem hasRes_step {cfg : Cfg} {C : Crypto} {w : World} {inp : Bytes} {cap : Nat} {p : Pkt} (hd : Distinct w.ctx.inter)
    (hp : coapDeserialize inp = .ok p) (hreq : isRequest p = true) (hna : ¬(p.type = 2 ∧ p.code = 0))
    (hu : Spec.uriPathRoom p.opts < cfg.uriMax) (hmax : cfg.uriMax ≤ 255) :
    ((step cfg C w (.protect inp cap none)).1.isOk = true → HasRes (step cfg C w (.protect inp cap none)).2.ctx.inter (resource p)) ∧
    ∀ k, HasRes w.ctx.inter k → HasRes (step cfg C w (.protect inp cap none)).2.ctx.inter k := by
  constructor
  · intro hok
    cases hr : (step cfg C w (.protect inp cap none)).1 with
    | err e => rw [hr] at hok; cases hok
    | ub => rw [hr] at hok; cases hok
    | ok x =>
      have hr' : coap2oscore cfg C none inp cap w = (.ok x, (step cfg C w (.protect inp cap none)).2) :=
        Prod.ext hr rfl
      obtain ⟨v, hv⟩ := protect_ok hr' hp hna
      rw [hv.inter']
      exact (hasRes_update hd hreq hu hmax hv.uri hv.upd).1
  · intro k hk
    have h := coap2oscore_effect cfg C none inp cap w
    simp only [step]
    generalize (coap2oscore cfg C none inp cap w).1 = r at h
    generalize (coap2oscore cfg C none inp cap w).2 = w' at h
    cases h with
    | unchanged _ => exact hk
    | emptyAck => exact hk
    | enc _ hp' _ _ _ _ _ henc =>
      rw [hp] at hp'
      obtain rfl := R.ok.inj hp'
      cases henc with
      | unchanged _ => exact hk
      | consumed _ _ => exact hk
      | fresh _ _ _ _ _ _ _ _ hres =>
        rcases hres with ⟨_, uri, hu', ht⟩ | ⟨_, ht⟩
        · exact (hasRes_update (t := w.ctx.inter) hd hreq hu hmax hu' ht).2 k hk
        · subst ht; exact hk
      | reuse _ _ _ _ _ hres =>
        rcases hres with ⟨_, uri, hu', ht⟩ | ⟨_, ht⟩
        · exact (hasRes_update (t := w.ctx.inter) hd hreq hu hmax hu' ht).2 k hk
        · subst ht; exact hk

/-- as many different resources as places -/
theorem hasRes_bound {t : Table} {K : List (Bytes × Bool)} (hK : K.Nodup) (h : ∀ k ∈ K, HasRes t k) : K.length ≤ t.length := by
  have := length_le_of_subset (m := t.filterMap (fun o => o.map recRes)) hK fun k hk => by
    obtain ⟨r, hr, e⟩ := h k hk
    exact List.mem_filterMap.2 ⟨some r, hr, by simp [e]⟩
  exact Nat.le_trans this (List.length_filterMap_le _ _)

theorem accepted_res {cfg : Cfg} {C : Crypto} (hmax : cfg.uriMax ≤ 255) (xs : List (Bytes × Nat)) :
    ∀ (w : World), Distinct w.ctx.inter →
      (∀ x ∈ xs, ∃ p, coapDeserialize x.1 = .ok p ∧ isRequest p = true ∧ ¬(p.type = 2 ∧ p.code = 0) ∧ Spec.uriPathRoom p.opts < cfg.uriMax) →
      ∃ t : Table, t.length = w.ctx.inter.length ∧ (∀ k, HasRes w.ctx.inter k → HasRes t k) ∧
        ∀ p ∈ accepted cfg C w xs, HasRes t (resource p) := by
  induction xs with
  | nil => intro w _ _; exact ⟨w.ctx.inter, rfl, fun _ h => h, fun p hp => by cases hp⟩
  | cons x xs ih =>
    intro w hd hx
    obtain ⟨p, hp, hreq, hna, hu⟩ := hx x (List.mem_cons_self ..)
    obtain ⟨hd', hl'⟩ := step_distinct cfg C w (.protect x.1 x.2 none) hd
    obtain ⟨s1, s2⟩ := hasRes_step (C := C) (cap := x.2) hd hp hreq hna hu hmax
    obtain ⟨t, t1, t2, t3⟩ := ih (step cfg C w (.protect x.1 x.2 none)).2 hd' (fun y hy => hx y (List.mem_cons_of_mem _ hy))
    refine ⟨t, by rw [t1, hl'], fun k hk => t2 k (s2 k hk), ?_⟩
    unfold accepted
    rw [hp]
    cases hr : (step cfg C w (.protect x.1 x.2 none)).1 with
    | err e => exact t3
    | ub => exact t3
    | ok b =>
      intro q hq
      rcases List.mem_cons.1 hq with rfl | hq
      · exact t2 _ (s1 (by rw [hr]; rfl))
      · exact t3 q hq

/-- **C64 is false when responses are lost**: the library keeps the record of a request until its response
arrives and has no way to drop it (there is no time-out and no call for it).  So however many requests a
client sends from a context, as long as no response arrives those that are accepted name at most
`OSCORE_INTERACTIONS_COUNT` (3 by default) different resources: once that many requests to different
resources are lost, no request for any other resource can be sent over this context. -/
theorem C64_false_lost {cfg : Cfg} {C : Crypto} (hmax : cfg.uriMax ≤ 255) (w : World) (hd : Distinct w.ctx.inter)
    (hl : w.ctx.inter.length = cfg.interactions) (xs : List (Bytes × Nat))
    (hx : ∀ x ∈ xs, ∃ p, coapDeserialize x.1 = .ok p ∧ isRequest p = true ∧ ¬(p.type = 2 ∧ p.code = 0) ∧
      Spec.uriPathRoom p.opts < cfg.uriMax)
    (K : List (Bytes × Bool)) (hK : K.Nodup) (h : ∀ k ∈ K, ∃ p ∈ accepted cfg C w xs, resource p = k) :
    K.length ≤ cfg.interactions := by
  obtain ⟨t, t1, -, t3⟩ := accepted_res (C := C) hmax xs w hd hx
  rw [← hl, ← t1]
  exact hasRes_bound hK fun k hk => by
    obtain ⟨p, hp, rfl⟩ := h k hk
    exact t3 p hp

/-! ### non-vacuity -/

/-- POST with public and confidential options, its response, a request of the other party, its response, the
registration of an observation, two notifications, and a request for the same resource in between -/
def exTalk : List CMsg :=
  [⟨true, exPost, 256, 256⟩, ⟨false, exRsp, 256, 256⟩, ⟨false, exGet2, 256, 256⟩, ⟨true, exRsp2, 256, 256⟩,
   ⟨true, exObs, 256, 256⟩, ⟨false, exNotif, 256, 256⟩, ⟨false, exGet2, 256, 256⟩, ⟨false, exNotif, 256, 256⟩,
   ⟨true, exRsp2, 256, 256⟩]

def pktOf (inp : Bytes) : Pkt := (coapDeserialize inp).getD ⟨0, 0, 0, 0, [], [], []⟩

theorem exTalk_proper : Proper exCfg [] exTalk := by
  have hs : ∀ inp ∈ [exPost, exRsp, exGet2, exRsp2, exObs, exNotif], coapDeserialize inp = .ok (pktOf inp) ∧
      Sendable exCfg (pktOf inp) 256 256 := by
    intro inp hi
    simp only [List.mem_cons, List.not_mem_nil, or_false] at hi
    rcases hi with rfl | rfl | rfl | rfl | rfl | rfl
    all_goals
      refine ⟨R.eq_getD _ (by decide +kernel), ?_⟩
      constructor
      · constructor
        · constructor <;> decide +kernel
        all_goals decide +kernel
      all_goals decide +kernel
  have t : ∀ {S : List Exch} {m : CMsg} {ms : List CMsg} {S' : List Exch},
      m.inp ∈ [exPost, exRsp, exGet2, exRsp2, exObs, exNotif] → m.capS = 256 → m.capR = 256 →
      outstandingAfter exCfg.interactions S (pktOf m.inp) = some S' → Proper exCfg S' ms → Proper exCfg S (m :: ms) := by
    intro S m ms S' hm h1 h2 ho hp
    obtain ⟨h3, h4⟩ := hs _ hm
    exact ⟨_, h3, by rw [h1, h2]; exact h4, S', ho, hp⟩
  have e : ∀ {S : List Exch} {m : CMsg} {ms : List CMsg}, (outstandingAfter exCfg.interactions S (pktOf m.inp)).isSome = true →
      outstandingAfter exCfg.interactions S (pktOf m.inp) = some ((outstandingAfter exCfg.interactions S (pktOf m.inp)).getD []) := by
    intro S m ms h
    cases hh : outstandingAfter exCfg.interactions S (pktOf m.inp) with
    | none => rw [hh] at h; cases h
    | some x => rfl
  unfold exTalk
  refine t (by decide) rfl rfl (S' := [([0x4A], [0x74, 0x76], false)]) (by decide +kernel) ?_
  refine t (by decide) rfl rfl (S' := []) (by decide +kernel) ?_
  refine t (by decide) rfl rfl (S' := [([0x4B], [0x74, 0x32], false)]) (by decide +kernel) ?_
  refine t (by decide) rfl rfl (S' := []) (by decide +kernel) ?_
  refine t (by decide) rfl rfl (S' := [([0x4A], [0x74, 0x76], true)]) (by decide +kernel) ?_
  refine t (by decide) rfl rfl (S' := [([0x4A], [0x74, 0x76], true)]) (by decide +kernel) ?_
  refine t (by decide) rfl rfl (S' := [([0x4B], [0x74, 0x32], false), ([0x4A], [0x74, 0x76], true)]) (by decide +kernel) ?_
  refine t (by decide) rfl rfl (S' := [([0x4B], [0x74, 0x32], false), ([0x4A], [0x74, 0x76], true)]) (by decide +kernel) ?_
  exact t (by decide) rfl rfl (S' := [([0x4A], [0x74, 0x76], true)]) (by decide +kernel) trivial

theorem toyCrypto_total : AeadTotal toyCrypto := fun _ _ _ _ _ _ _ _ => rfl

/-- the hypotheses of `C64_partial` are met -/
example : ∀ x ∈ exTalk.zip (converse exCfg toyCrypto (exW exClient) (exW exServer) exTalk), Delivered x.1 x.2 :=
  (C64_partial (p := exClientParams true) (q := exServerParams true) toyCrypto_lawful toyCrypto_total (by decide) (by decide) ⟨rfl, rfl, rfl, rfl, rfl⟩ rfl rfl (by decide) (by decide)
    (by decide) exClient_init exServer_init 0 0 [] [] exTalk exTalk_proper (by decide)).2

/-- those of `C64_edhoc_partial` too -/
example : (Edhoc.exSetup 3).Honest (Edhoc.exAgreed true true) ∧ (Edhoc.exSetup 3).i.cI.length ≤ 4 ∧ (Edhoc.exSetup 3).r.cR.length ≤ 4 :=
  ⟨Edhoc.ex_honest (.inr ⟨rfl, rfl, rfl⟩), by decide, by decide⟩

/-- GET for the one-letter path, token = letter -/
def exGetOf (c : UInt8) : Bytes := [0x41, 0x01, 0x12, 0x34, c, 0xB1, c]

/-- a client whose responses are lost: three requests are accepted, the requests for other resources are refused -/
example : (accepted exCfg toyCrypto (exW exClient) ([0x61, 0x62, 0x63, 0x64, 0x65].map fun c => (exGetOf c, 256))).map resource =
      [([0x61], false), ([0x62], false), ([0x63], false)] ∧
    Distinct (exW exClient).ctx.inter ∧ (exW exClient).ctx.inter.length = exCfg.interactions ∧
    ∀ x ∈ [0x61, 0x62, 0x63, 0x64, 0x65].map (fun c => (exGetOf c, 256)), ∃ p, coapDeserialize x.1 = .ok p ∧ isRequest p = true ∧
      ¬(p.type = 2 ∧ p.code = 0) ∧ Spec.uriPathRoom p.opts < exCfg.uriMax := by
  refine ⟨by decide +kernel, distinct_init 3, by decide +kernel, ?_⟩
  intro x hx
  refine ⟨pktOf x.1, ?_⟩
  simp only [List.map_cons, List.map_nil, List.mem_cons, List.not_mem_nil, or_false] at hx
  rcases hx with rfl | rfl | rfl | rfl | rfl <;>
  exact ⟨R.eq_getD _ (by decide +kernel), by decide +kernel, by decide +kernel, by decide +kernel⟩

/-- GET with Uri-Port and Accept -/
def exPort : Bytes := [0x41, 0x01, 0x12, 0x34, 0x4A, 0x72, 0x16, 0x34, 0xA1, 0x2A]

/-- **C64 is false (2)**: a legal request that can never be sent.  Its inner option Accept (17) follows the outer option
Uri-Port (7), from which it is 10 away; without it the difference is 17 and takes one more byte than the library
announces.  Without a payload the call fails. -/
theorem C64_false_port (w : World) (cap : Nat) :
    (coapDeserialize exPort).isOk = true ∧ ∀ C x, (step exCfg C w (.protect exPort cap none)).1 ≠ .ok x := by
  refine ⟨by decide +kernel, fun C x h => ?_⟩
  have hr' : coap2oscore exCfg C none exPort cap w = (.ok x, (step exCfg C w (.protect exPort cap none)).2) := Prod.ext h rfl
  obtain ⟨v, hv⟩ := protect_ok hr' (p := pktOf exPort) (R.eq_getD _ (by decide +kernel)) (by decide +kernel)
  have := hv.pt
  have e : (plaintextSetup exCfg (pktOf exPort) (redelta 0 (innerOpts (isRequest (pktOf exPort)) (pktOf exPort).opts))
    (plaintextLen (pktOf exPort) (eBytes (isRequest (pktOf exPort)) (pktOf exPort).opts % 65536))).isOk = false := by decide +kernel
  rw [this] at e
  cases e

end Verif
