import Verif.Props.EndToEnd
import Verif.Props.Coap
import Verif.Props.OscoreKeys
import Verif.Props.Send
import Verif.Props.Interactions
import Verif.Lemmas.UnprotectLemmas
/-
C61: what `oscore2coap` delivers was given to the peer's `coap2oscore`.
-/
namespace Verif
open Verif.Spec (sortedFrom wire WellFormed)

/-! ### specification -/

/-- number and value of the options of a message -/
def optVals (l : List Opt) : List (Nat × Bytes) := l.map (fun o => (o.num, o.value))

/-- The options of a message that OSCORE authenticates (RFC 8613 §4.1): all that are not public, and
Observe – with its value in a request, without it in a response. -/
def authOptions (p : Pkt) : List (Nat × Bytes) :=
  (optVals p.opts).filterMap (fun o =>
    if o.1 = 6 then some (6, if isRequest p then o.2 else [])
    else if PublicOption o.1 then none else some o)

/-- The packet is not a forgery: if it is accepted with the nonce and the associated data a receiver in the state `c` checks
it with, then the owner of the key encrypted exactly that plaintext with exactly these.  (`log` is the list of
the AEAD encryptions the owner of the key did.) -/
def AuthenticFor (C : Crypto) (c : Ctx) (inp : Bytes) (log : List EncCall) : Prop :=
  ∀ n a ct pt, Checked c inp n a ct → C.aeadDec c.recipientKey n a 8 ct = some pt →
    ∃ e ∈ log, e.nonce = n ∧ encStructure e.aad = .ok a ∧ e.pt = pt

/-! ### where the entries of the log come from -/

/-- the AEAD call `e` was made while protecting `p` in the world `w` -/
structure MadeFrom (cfg : Cfg) (p : Pkt) (w : World) (e : EncCall) : Prop where
  notAck : ¬(p.type = 2 ∧ p.code = 0)
  lenOk : plaintextLen p (eBytes (isRequest p) p.opts % 65536) ≤ cfg.maxPlaintext
  pt : plaintextSetup cfg p (redelta 0 (innerOpts (isRequest p) p.opts))
    (plaintextLen p (eBytes (isRequest p) p.opts % 65536)) = .ok e.pt
  aad : ∃ x rp rk, readWrapper w.ctx.inter (msgType p) p.token (.ok x) = .ok (rp, rk) ∧
    createAad rk rp = .ok e.aad ∧ (x = ([], []) ∨ x.2 = w.ctx.senderId)
  req : isRequest p = true → ∃ piv, ssn2piv w.ctx.ssn = .ok piv ∧
    createAad w.ctx.senderId piv = .ok e.aad

theorem step_provenance (cfg : Cfg) (C : Crypto) (w : World) (op : Op) (e : EncCall)
    (he : e ∈ (step cfg C w op).2.log) :
    e ∈ w.log ∨ ∃ inp cap nvmW p, op = .protect inp cap nvmW ∧ coapDeserialize inp = .ok p ∧
      MadeFrom cfg p w e := by
  cases op with
  | unprotect inp cap => exact .inl he
  | protect inp cap nvmW =>
    simp only [step] at he
    have heff := coap2oscore_effect cfg C nvmW inp cap w
    generalize (coap2oscore cfg C nvmW inp cap w).1 = r at *
    generalize (coap2oscore cfg C nvmW inp cap w).2 = w' at *
    cases heff with
    | unchanged _ => exact .inl he
    | emptyAck => exact .inl he
    | @enc p s pt ev r1 w1 hf hp hack hs hlen hpt hev henc =>
      obtain ⟨_, hseq⟩ := optionSplit_ok (coapDeserialize_wf hp).nums hs
      subst hseq
      cases henc with
      | unchanged _ => exact .inl he
      | consumed _ _ =>
        left
        have : (bumped cfg nvmW (withEcho w ev)).log = w.log := rfl
        rw [this] at he
        exact he
      | @fresh piv nonce rp rk aad ct opt t hn hw hpiv hnonce hopt hread haad hct hres =>
        rcases List.mem_cons.1 he with rfl | he
        · refine .inr ⟨inp, cap, nvmW, p, rfl, hp, hack, hlen, hpt, ⟨_, rp, rk, hread, haad, .inr rfl⟩, ?_⟩
          intro hr
          refine ⟨piv, hpiv, ?_⟩
          have : ¬(msgType p = .response ∨ msgType p = .notification) := by
            have := msgType_request hr
            rintro (h | h)
            · exact this.1 h
            · exact this.2 h
          unfold readWrapper at hread
          rw [if_neg this] at hread
          obtain ⟨rfl, rfl⟩ := Prod.mk.inj (R.ok.inj hread)
          exact haad
        · exact .inl he
      | @reuse rp rk aad ct opt t hn hopt hread haad hct hres =>
        rcases List.mem_cons.1 he with rfl | he
        · refine .inr ⟨inp, cap, nvmW, p, rfl, hp, hack, hlen, hpt, ⟨_, rp, rk, hread, haad, .inl rfl⟩, ?_⟩
          intro hr
          exfalso
          unfold needsNewPiv at hn
          simp only [Bool.or_eq_false_iff, bne_eq_false_iff_eq] at hn
          exact (msgType_request hr).1 hn.1
        · exact .inl he

theorem run_provenance (cfg : Cfg) (C : Crypto) (w : World) (h : List Op) (e : EncCall)
    (he : e ∈ (run cfg C w h).log) :
    e ∈ w.log ∨ ∃ h1 h2 inp cap nvmW p, h = h1 ++ Op.protect inp cap nvmW :: h2 ∧
      coapDeserialize inp = .ok p ∧ MadeFrom cfg p (run cfg C w h1) e := by
  induction h generalizing w with
  | nil => exact .inl he
  | cons op h ih =>
    have : run cfg C w (op :: h) = run cfg C (step cfg C w op).2 h := rfl
    rw [this] at he
    rcases ih _ he with he | ⟨h1, h2, inp, cap, nvmW, p, rfl, hp, hm⟩
    · rcases step_provenance cfg C w op e he with he | ⟨inp, cap, nvmW, p, rfl, hp, hm⟩
      · exact .inl he
      · exact .inr ⟨[], h, inp, cap, nvmW, p, rfl, hp, hm⟩
    · exact .inr ⟨op :: h1, h2, inp, cap, nvmW, p, rfl, hp, hm⟩

/-! ### the exchange sort keeps the order of the inner options -/

theorem exPass_keeps {k : Nat} {x : Opt} {xs a b : List Opt} (hl : x :: xs = a ++ b) (hb : NumSorted b)
    (ha : ∀ o ∈ a, o.num ≠ k) :
    ∃ a' b', (exPass x xs).2 = a' ++ b' ∧ NumSorted b' ∧ (∀ o ∈ a', o.num ≠ k) ∧
      withNum k ((exPass x xs).1 :: (exPass x xs).2) = withNum k (x :: xs) := by
  cases a with
  | nil =>
    simp only [List.nil_append] at hl
    subst hl
    have hs := List.pairwise_cons.1 hb
    rw [exPass_sorted hs.1]
    exact ⟨[], xs, rfl, hs.2, by simp, rfl⟩
  | cons a0 a =>
    simp only [List.cons_append, List.cons.injEq] at hl
    obtain ⟨rfl, rfl⟩ := hl
    rw [exPass_append]
    generalize hm : (exPass x a).1 = m
    generalize hA : (exPass x a).2 = A
    have hperm : (m :: A).Perm (x :: a) := by rw [← hm, ← hA]; exact exPass_perm x a
    have hmA : ∀ o ∈ m :: A, o.num ≠ k := fun o ho => ha o (hperm.subset ho)
    have e0 : withNum k (x :: (a ++ b)) = withNum k b := by
      have : x :: (a ++ b) = (x :: a) ++ b := rfl
      rw [this, withNum_append, withNum_nil_of ha]; rfl
    cases b with
    | nil =>
      refine ⟨A, [], by simp [exPass], .nil, fun o ho => hmA o (List.mem_cons_of_mem _ ho), ?_⟩
      rw [e0]
      simp only [exPass, List.append_nil]
      rw [withNum_nil_of hmA]
      rfl
    | cons b0 b =>
      have hs := List.pairwise_cons.1 hb
      by_cases hlt : m.num > b0.num
      · have e : exPass m (b0 :: b) = (b0, m :: b) := by
          unfold exPass
          rw [if_pos hlt, exPass_sorted hs.1]
        rw [e]
        refine ⟨A ++ [m], b, by simp, hs.2, ?_, ?_⟩
        · intro o ho
          exact hmA o ((List.perm_append_singleton m A).subset ho)
        · rw [e0]
          simp only
          rw [withNum_cons, withNum_append, withNum_cons k m, withNum_cons k b0,
            withNum_nil_of (fun o ho => hmA o (List.mem_cons_of_mem _ ho)), if_neg (hmA m (by simp))]
          rfl
      · have hall : ∀ y ∈ b0 :: b, m.num ≤ y.num := by
          intro y hy
          rcases List.mem_cons.1 hy with rfl | hy
          · omega
          · have := hs.1 y hy; omega
        rw [exPass_sorted hall]
        refine ⟨A, b0 :: b, rfl, hb, fun o ho => hmA o (List.mem_cons_of_mem _ ho), ?_⟩
        rw [e0]
        have e1 : m :: (A ++ b0 :: b) = (m :: A) ++ b0 :: b := rfl
        simp only
        rw [e1, withNum_append, withNum_nil_of hmA]
        rfl

theorem exSort_keeps {k n : Nat} {a b : List Opt} (hb : NumSorted b) (ha : ∀ o ∈ a, o.num ≠ k) :
    withNum k (exSort n (a ++ b)) = withNum k b := by
  have hw : ∀ a b : List Opt, (∀ o ∈ a, o.num ≠ k) → withNum k (a ++ b) = withNum k b := by
    intro a b ha
    rw [withNum_append, withNum_nil_of ha]; rfl
  rw [← hw a b ha]
  induction n generalizing a b with
  | zero => rfl
  | succ n ih =>
    generalize hl : a ++ b = l
    cases l with
    | nil => rfl
    | cons x xs =>
      obtain ⟨a', b', h1, h2, h3, h4⟩ := exPass_keeps hl.symm hb ha
      unfold exSort
      simp only
      rw [← h4, withNum_cons, withNum_cons, h1, ih h2 h3]

theorem exSort_id {n : Nat} {l : List Opt} (h : NumSorted l) : exSort n l = l := by
  induction n generalizing l with
  | zero => rfl
  | succ n ih =>
    cases l with
    | nil => rfl
    | cons x xs =>
      have hs := List.pairwise_cons.1 h
      unfold exSort
      rw [exPass_sorted hs.1]
      simp only
      rw [ih hs.2]

/-! ### from the plaintext to the delivered message -/

/-- the plaintext of a carriable message, as the receiver parses it -/
theorem MadeFrom.plain {cfg : Cfg} {p : Pkt} {w : World} {e : EncCall} (h : MadeFrom cfg p w e)
    (hr : PktRange p) (hi : InnerOk cfg p) :
    payloadParser e.pt = .ok (p.code, redelta 0 (innerOpts (isRequest p) p.opts), p.payload) :=
  (inner_plain h.pt h.lenOk hr.nums hi).1

/-- What is known after a delivery. -/
structure Got (cfg : Cfg) (C : Crypto) (inp : Bytes) (p : Pkt) (cap : Nat) (c : Ctx) (b : Bytes) (opt : Option OscOpt)
    (out : Pkt) (pt rp rk nonce aad a : Bytes) : Prop where
  read : readWrapper c.inter (msgType p) p.token (decPivKid opt) = .ok (rp, rk)
  haad : createAad rk rp = .ok aad
  chk : Checked c inp nonce a p.payload
  str : encStructure aad = .ok a
  dec : C.aeadDec c.recipientKey nonce a 8 p.payload = some pt
  gen : oCoapPkgGenerate pt p = .ok out
  ser : coapSerialize cfg out cap = .ok b
  h9 : ∃ o ∈ p.opts, o.num = 9
  kid : isRequest p = true → ∃ t o, coapParse inp = .ok (p, t) ∧ oscoreOptionParser t = .ok o ∧ opt = some o ∧
      kidMatches c o = .ok true

theorem delivered_got {cfg : Cfg} {C : Crypto} {inp b : Bytes} {cap : Nat} {c c' : Ctx} {p : Pkt}
    (hp : coapDeserialize inp = .ok p) (h : oscore2coap cfg C inp cap c = (.ok b, c')) :
    ∃ opt out pt rp rk nonce aad a, Got cfg C inp p cap c b opt out pt rp rk nonce aad a := by
  have key : ∀ {t o opt out pt c1}, coapParse inp = .ok (p, t) → oscoreOptionParser t = .ok o →
      (isRequest p = true → opt = some o ∧ kidMatches c o = .ok true) →
      (isRequest p = false → opt = if o.piv.len ≠ 0 then some o else none) →
      DecEffect cfg C opt p c (.ok (out, pt)) c1 →
      coapSerialize cfg out cap = .ok b → (∃ o ∈ p.opts, o.num = 9) →
      (isRequest p = true → ∃ t o, coapParse inp = .ok (p, t) ∧ oscoreOptionParser t = .ok o ∧ opt = some o ∧
      kidMatches c o = .ok true) →
      ∃ opt out pt rp rk nonce aad a, Got cfg C inp p cap c b opt out pt rp rk nonce aad a := by
    intro t0 o0 opt out pt c1 hp0 ho0 hq0 hr0 hdec hser h9 hk
    generalize hr : (R.ok (out, pt) : R (Pkt × Bytes)) = r at hdec
    cases hdec with
    | unchanged hn => exact absurd hr.symm (hn _)
    | @auth rp rk nonce aad pt' t hread hnonce haad hpt hres =>
      rcases hres with ⟨out', uri, ho, hgen, _, _⟩ | ⟨hn, _⟩
      · rw [← hr] at ho
        obtain ⟨rfl, rfl⟩ := Prod.mk.inj (R.ok.inj ho)
        obtain ⟨k1, k2⟩ := checked hp0 ho0 hq0 hr0 hread hnonce haad hpt
        obtain ⟨a, ha, hd⟩ := R.bind_eq_ok.1 hpt
        have k1 : Checked c inp nonce a p.payload := by rw [(C25_aad_rfc8613 haad ha).2]; exact k1
        refine ⟨opt, out, pt, rp, rk, nonce, aad, a, hread, haad, k1, ha, ?_, hgen, hser, h9, hk⟩
        unfold ofLib at hd
        split at hd
        · rename_i x hx; obtain rfl := R.ok.inj hd; exact hx
        · cases hd
      · exact absurd hr.symm (hn _)
  have hpp : ∀ {p' t}, coapParse inp = .ok (p', t) → p' = p := by
    intro p' t hpt
    unfold coapDeserialize at hp
    rw [hpt] at hp
    exact R.ok.inj hp
  have h9 : ∀ {t o}, coapParse inp = .ok (p, t) → oscoreOptionParser t = .ok o → ∃ o ∈ p.opts, o.num = 9 := by
    intro t o hpt ho
    apply Classical.byContradiction
    intro hn
    unfold oscoreOptionParser at ho
    have h1 : ∀ x ∈ t, x.1.num ≠ optOSCORE := by
      intro x hx e
      exact hn ⟨x.1, by rw [(coapParse_wf hpt).2.1]; exact List.mem_map.2 ⟨x, hx, rfl⟩, e⟩
    have h2 := parserGo_skip (acc := none) (b := []) h1
    rw [List.append_nil, ho] at h2
    cases h2
  have he := oscore2coap_effect cfg C inp cap c
  rw [h] at he
  simp only at he
  generalize hr : (R.ok b : R Bytes) = r at he
  cases he with
  | unchanged hn => exact absurd hr.symm (hn b)
  | reqFail _ _ _ _ _ _ _ _ hn => exact absurd hr.symm (hn b)
  | @reqOk p' t o out pt c1 r2 c2 _ hp' ho hreq hkid _ hd ha =>
    obtain rfl := hpp hp'
    obtain ⟨_, _, hs⟩ := R.bind_eq_ok.1 hr.symm
    exact key hp' ho (fun _ => ⟨rfl, hkid⟩) (fun h => by rw [hreq] at h; cases h) hd hs (h9 hp' ho) (fun _ => ⟨t, o, hp', ho, rfl, hkid⟩)
  | rspFail _ _ _ _ _ _ _ hn => exact absurd hr.symm (hn b)
  | notifOk _ hp' ho hreq _ hl _ _ hd' =>
    obtain rfl := hpp hp'
    exact key hp' ho (fun h => by rw [hreq] at h; cases h) (fun _ => by rw [if_pos hl]) hd' hr.symm (h9 hp' ho) (fun hh => by rw [hreq] at hh; cases hh)
  | rspOk _ hp' ho hreq _ hopt hd' =>
    obtain rfl := hpp hp'
    exact key hp' ho (fun h => by rw [hreq] at h; cases h) (fun _ => hopt) hd' hr.symm (h9 hp' ho) (fun hh => by rw [hreq] at hh; cases hh)

theorem optVals_redelta (prev : Nat) (l : List Opt) : optVals (redelta prev l) = optVals l := by
  unfold optVals; exact redelta_num prev l

theorem authOptions_eq (p : Pkt) : authOptions p = optVals (innerOpts (isRequest p) p.opts) := by
  unfold authOptions optVals innerOpts
  generalize p.opts = l
  induction l with
  | nil => rfl
  | cons o l ih =>
    simp only [List.map_cons, List.filterMap_cons]
    by_cases h6 : o.num = 6
    · simp only [h6, if_true, optOBSERVE, List.map_cons]
      rw [ih]
      rfl
    · have h6' : ¬ o.num = optOBSERVE := h6
      by_cases hc : PublicOption o.num
      · have : isClassE o.num = false := by
          have := (public_iff (o := o)).2 hc
          simp only [Bool.or_eq_true, beq_iff_eq, h6', false_or, Bool.not_eq_true'] at this
          exact this
        simp only [if_neg h6, if_neg h6', if_pos hc, this, Bool.false_eq_true, if_false]
        exact ih
      · have : isClassE o.num = true := by
          cases hh : isClassE o.num with
          | true => rfl
          | false => exact absurd ((public_iff (o := o)).1 (by simp [hh])) hc
        simp only [if_neg h6, if_neg h6', if_neg hc, this, if_true, List.map_cons]
        rw [ih]

theorem optVals_withNum (k : Nat) (l : List Opt) :
    (optVals l).filter (fun o => o.1 == k) = optVals (withNum k l) := by
  unfold optVals withNum
  rw [List.filter_map]
  rfl

theorem innerOpts_sorted {req : Bool} {l : List Opt} (h : NumSorted l) : NumSorted (innerOpts req l) := by
  unfold innerOpts
  unfold NumSorted at h ⊢
  rw [List.pairwise_filterMap]
  refine h.imp ?_
  intro a b hab a' ha b' hb
  have key : ∀ {x y : Opt}, (if x.num = optOBSERVE then some { x with value := if req = true then x.value else [] }
      else if isClassE x.num = true then some x else none) = some y → y.num = x.num := by
    intro x y h
    split at h
    · simp only [Option.some.injEq] at h; subst h; rfl
    · split at h
      · simp only [Option.some.injEq] at h; subst h; rfl
      · cases h
  rw [key ha, key hb]
  exact hab

/-- What the merge of `oscore2coap` makes of the outer options `u` and the inner options of `p`. -/
theorem merged (u : List Opt) (p : Pkt) (l : List Opt) (hs : sortedFrom 0 p.opts)
    (hu : ∀ o ∈ u, o.num < 65536)
    (h : optionsReorder u (redelta 0 (innerOpts (isRequest p) p.opts)) = .ok l) :
    sortedFrom 0 l ∧
    (optVals l).Perm (optVals (u.filter (fun o => decide (o.num ≠ 9 ∧ o.num ≠ 6))) ++ authOptions p) ∧
    (∀ k, (∀ o ∈ u, o.num = k → k = 9 ∨ k = 6) →
      (optVals l).filter (fun o => o.1 == k) = (authOptions p).filter (fun o => o.1 == k)) ∧
    ((∀ o ∈ u, o.num = 9 ∨ o.num = 6) → optVals l = authOptions p) := by
  have hin : ∀ o ∈ redelta 0 (innerOpts (isRequest p) p.opts), o.num < 65536 := by
    intro o ho
    have : o.num ∈ (redelta 0 (innerOpts (isRequest p) p.opts)).map Opt.num := List.mem_map.2 ⟨o, ho, rfl⟩
    rw [redelta_nums] at this
    obtain ⟨x, hx, he⟩ := List.mem_map.1 this
    unfold innerOpts at hx
    obtain ⟨y, hy, hy2⟩ := List.mem_filterMap.1 hx
    have hylt := numsOk_lt (sortedFrom_numsOk hs) y hy
    rw [← he]
    split at hy2
    · simp only [Option.some.injEq] at hy2; subst hy2; exact hylt
    · split at hy2
      · simp only [Option.some.injEq] at hy2; subst hy2; exact hylt
      · cases hy2
  obtain ⟨hperm, hsorted⟩ := C18_merge u _ l h hu hin
  have hinS : NumSorted (redelta 0 (innerOpts (isRequest p) p.opts)) :=
    numSorted_of_map (redelta_nums 0 _).symm (innerOpts_sorted (numSorted_of_sortedFrom hs).1)
  refine ⟨hsorted, ?_, ?_, ?_⟩
  · rw [authOptions_eq]
    rw [List.map_append] at hperm
    have := optVals_redelta 0 (innerOpts (isRequest p) p.opts)
    unfold optVals at this ⊢
    rw [this] at hperm
    exact hperm
  · intro k hk
    unfold optionsReorder at h
    obtain ⟨_, _, h⟩ := R.bind_eq_ok.1 h
    have := R.ok.inj h
    subst this
    rw [optVals_redelta, optVals_withNum, exSort_keeps, ← optVals_withNum, optVals_redelta, authOptions_eq]
    · exact hinS
    · intro o ho e
      obtain ⟨h1, h2⟩ := List.mem_filter.1 ho
      rcases hk o h1 e with rfl | rfl
      · simp [optOSCORE, e] at h2
      · simp [optOBSERVE, e] at h2
  · intro hu2
    unfold optionsReorder at h
    obtain ⟨_, _, h⟩ := R.bind_eq_ok.1 h
    have := R.ok.inj h
    subst this
    have hf : u.filter (fun o => o.num != optOSCORE && o.num != optOBSERVE) = [] := by
      rw [List.filter_eq_nil_iff]
      intro o ho
      rcases hu2 o ho with e | e <;> simp [optOSCORE, optOBSERVE, e]
    rw [hf, List.nil_append, optVals_redelta, exSort_id hinS, optVals_redelta, authOptions_eq]

/-! ### C61 -/

theorem merged_wf {p p0 : Pkt} {l : List Opt} (hp : PktRange p) (hp0 : PktRange p0)
    (h9 : ∃ o ∈ p.opts, o.num = 9)
    (hr : optionsReorder p.opts (redelta 0 (innerOpts (isRequest p0) p0.opts)) = .ok l)
    (hin : (innerOpts (isRequest p0) p0.opts).length ≤ 10)
    (hs : sortedFrom 0 l)
    (hperm : (optVals l).Perm (optVals (p.opts.filter (fun o => decide (o.num ≠ 9 ∧ o.num ≠ 6))) ++
      authOptions p0)) :
    WellFormed { p with code := p0.code, opts := l, payload := p0.payload } := by
  refine ⟨hp.ver, hp.type, hp.mid, hp.token, ?_, hs, ?_⟩
  · simp only
    unfold optionsReorder at hr
    obtain ⟨_, hc, _⟩ := R.bind_eq_ok.1 hr
    have h1 := checkBufferSize_ok.1 hc
    rw [redelta_length] at h1
    have h19 := hp.count
    have hlen := (hperm.length_eq)
    rw [authOptions_eq, List.length_append] at hlen
    unfold optVals at hlen
    rw [List.length_map, List.length_map, List.length_map] at hlen
    obtain ⟨o, ho, h9⟩ := h9
    have hlt : (p.opts.filter (fun o => decide (o.num ≠ 9 ∧ o.num ≠ 6))).length < p.opts.length := by
      apply List.length_filter_lt_length_iff_exists.2
      exact ⟨o, ho, by simp [h9]⟩
    unfold maxOptionCount at h1
    omega
  · intro o ho
    simp only at ho
    have hm : (o.num, o.value) ∈ optVals l := List.mem_map.2 ⟨o, ho, rfl⟩
    rcases List.mem_append.1 (hperm.subset hm) with h | h
    · obtain ⟨x, hx, he⟩ := List.mem_map.1 h
      have := (hp.opts x (List.mem_filter.1 hx).1).2
      have e := (Prod.mk.inj he).2
      rw [← e]
      exact this
    · unfold authOptions at h
      obtain ⟨y, hy, hy2⟩ := List.mem_filterMap.1 h
      obtain ⟨x, hx, rfl⟩ := List.mem_map.1 hy
      have hxl := (hp0.opts x hx).2
      split at hy2
      · have e := (Prod.mk.inj (Option.some.inj hy2)).2
        rw [← e]
        split
        · exact hxl
        · simp
      · split at hy2
        · cases hy2
        · have e := (Prod.mk.inj (Option.some.inj hy2)).2
          rw [← e]; exact hxl


theorem aad_inj {k p k' p' x x' a : Bytes} (h1 : createAad k p = .ok x) (h2 : createAad k' p' = .ok x')
    (h3 : encStructure x = .ok a) (h4 : encStructure x' = .ok a) : k = k' ∧ p = p' := by
  have hb : ∀ {k p x : Bytes}, createAad k p = .ok x → k.length < 2 ^ 32 ∧ p.length < 2 ^ 32 := by
    intro k p x h
    have := (createAad_ok.1 h).2
    have h10 : Cbor.Item.int 10 = .uint 10 := rfl
    simp only [Cbor.aadArray, h10, Cbor.enc, Cbor.encList, List.length_append] at this
    omega
  obtain ⟨_, e1⟩ := C25_aad_rfc8613 h1 h3
  obtain ⟨_, e2⟩ := C25_aad_rfc8613 h2 h4
  exact C25_injective (hb h1).1 (hb h1).2 (hb h2).1 (hb h2).2 (e1.symm.trans e2)

/-- The delivered bytes `b` are the message `p0` in the outer header of the received packet `p`:

* code and payload of `p0`;
* version, type, message ID and token of `p` (not protected by OSCORE);
* options in ascending order: the authenticated options of `p0` together with the outer options of
  `p` (OSCORE and Observe excepted); for every option number that the outer part does not use,
  exactly the options of `p0` in their order; if the outer part has nothing but OSCORE and Observe,
  exactly the authenticated options of `p0`. -/
structure DeliveredAs (p p0 : Pkt) (b : Bytes) (opts : List (Nat × Bytes)) : Prop where
  bytes : b = wire p.ver p.type p.token.length p0.code p.mid p.token opts p0.payload
  ascending : opts.Pairwise (fun x y => x.1 ≤ y.1)
  all : opts.Perm (optVals (p.opts.filter (fun o => decide (o.num ≠ 9 ∧ o.num ≠ 6))) ++ authOptions p0)
  kept : ∀ k, (∀ o ∈ p.opts, o.num = k → k = 9 ∨ k = 6) →
    opts.filter (fun o => o.1 == k) = (authOptions p0).filter (fun o => o.1 == k)
  exact : (∀ o ∈ p.opts, o.num = 9 ∨ o.num = 6) → opts = authOptions p0

theorem delivered_core (cfgS cfgR : Cfg) (C : Crypto) (w0 : World) (h : List Op) (h0 : w0.log = [])
    (hok : ∀ inp0 cap0 nvmW p0, Op.protect inp0 cap0 nvmW ∈ h → coapDeserialize inp0 = .ok p0 →
      InnerOk cfgS p0)
    (inp b : Bytes) (cap : Nat) (c c' : Ctx) (p : Pkt) (hp : coapDeserialize inp = .ok p)
    (hauth : AuthenticFor C c inp (run cfgS C w0 h).log)
    (hdel : oscore2coap cfgR C inp cap c = (.ok b, c')) :
    ∃ h1 h2 inp0 cap0 nvmW p0 opts opt out pt rp rk nonce aad a e,
      h = h1 ++ Op.protect inp0 cap0 nvmW :: h2 ∧ coapDeserialize inp0 = .ok p0 ∧
      DeliveredAs p p0 b opts ∧
      Got cfgR C inp p cap c b opt out pt rp rk nonce aad a ∧
      MadeFrom cfgS p0 (run cfgS C w0 h1) e ∧ encStructure e.aad = .ok a := by
  obtain ⟨opt, out, pt, rp, rk, nonce, aad, a, G⟩ := delivered_got hp hdel
  obtain ⟨e, he, hen, hea, hep⟩ := hauth nonce a _ pt G.chk G.dec
  rcases run_provenance cfgS C w0 h e he with he | ⟨h1, h2, inp0, cap0, nvmW, p0, hh, hp0, hm⟩
  · rw [h0] at he; cases he
  have hi := hok inp0 cap0 nvmW p0 (by rw [hh]; simp) hp0
  have hr0 := coapDeserialize_wf hp0
  have hplain := hm.plain hr0 hi
  rw [hep] at hplain
  have hgen := G.gen
  unfold oCoapPkgGenerate at hgen
  rw [hplain] at hgen
  simp only [R.ok_bind] at hgen
  obtain ⟨l, hl, hout⟩ := R.bind_eq_ok.1 hgen
  have hpr := coapDeserialize_wf hp
  obtain ⟨hs, hperm, hk, hex⟩ := merged p.opts p0 l hi.sorted (numsOk_lt hpr.nums) hl
  have hwf := merged_wf hpr hr0 G.h9 hl hi.inner hs hperm
  have hout := R.ok.inj hout
  have hser := G.ser
  rw [← hout] at hser
  refine ⟨h1, h2, inp0, cap0, nvmW, p0, optVals l, opt, out, pt, rp, rk, nonce, aad, a, e, hh, hp0,
    ⟨?_, ?_, hperm, hk, hex⟩, G, hm, hea⟩
  · exact C15_serialize_rfc7252 cfgR _ cap b hwf hser
  · have := (numSorted_of_sortedFrom hs).1
    unfold optVals
    exact List.pairwise_map.2 this

/-- **C61** (requests) Whatever an attacker does on the network: if a request is delivered and it is
not a forgery, then the peer was given, in one call of `coap2oscore`, a message
with the delivered code, payload and authenticated options; if that message is a request, the
sequence number on the wire is the one the peer used for it and the KID is the peer's.

(If it is not a request, the peer answered a "request" of its own: the AAD binds the two.)

Partial: outer options of a protected class are delivered although nobody authenticated them
(`C61_false_injected_option`). -/
theorem C61_request_was_sent_partial (cfgS cfgR : Cfg) (C : Crypto) (w0 : World) (h : List Op)
    (h0 : w0.log = [])
    (hok : ∀ inp0 cap0 nvmW p0, Op.protect inp0 cap0 nvmW ∈ h → coapDeserialize inp0 = .ok p0 →
      InnerOk cfgS p0)
    (inp b : Bytes) (cap : Nat) (c c' : Ctx) (p : Pkt) (hp : coapDeserialize inp = .ok p)
    (hreq : isRequest p = true)
    (hauth : AuthenticFor C c inp (run cfgS C w0 h).log)
    (hdel : oscore2coap cfgR C inp cap c = (.ok b, c')) :
    ∃ h1 h2 inp0 cap0 nvmW p0 opts, h = h1 ++ Op.protect inp0 cap0 nvmW :: h2 ∧
      coapDeserialize inp0 = .ok p0 ∧ DeliveredAs p p0 b opts ∧
      (isRequest p0 = true → wirePiv inp = some (run cfgS C w0 h1).ctx.ssn ∧
        (run cfgS C w0 h1).ctx.senderId = c.recipientId) ∧
      (isRequest p0 = false → ∃ r, some r ∈ (run cfgS C w0 h1).ctx.inter ∧ r.token = p0.token ∧
        r.kid = c.recipientId) := by
  obtain ⟨h1, h2, inp0, cap0, nvmW, p0, opts, opt, out, pt, rp, rk, nonce, aad, a, e, hh, hp0, hD, G, hm, hea⟩ :=
    delivered_core cfgS cfgR C w0 h h0 hok inp b cap c c' p hp hauth hdel
  obtain ⟨t, o, hpt, ho, rfl, hkid⟩ := G.kid hreq
  have hread := G.read
  have hnr : ¬(msgType p = .response ∨ msgType p = .notification) := by
    have := msgType_request hreq
    rintro (h | h)
    · exact this.1 h
    · exact this.2 h
  unfold readWrapper at hread
  rw [if_neg hnr] at hread
  unfold decPivKid OscOpt.read at hread
  obtain ⟨piv, hpiv, hread⟩ := R.bind_eq_ok.1 hread
  obtain ⟨kid, hk, hread⟩ := R.bind_eq_ok.1 hread
  obtain ⟨rfl, rfl⟩ := Prod.mk.inj (R.ok.inj hread)
  have hkr : kid = c.recipientId := by
    unfold kidMatches at hkid
    split at hkid
    · cases hkid
    · rw [hk] at hkid
      exact (arrayEquals_iff.1 (R.ok.inj hkid)).symm
  subst hkr
  refine ⟨h1, h2, inp0, cap0, nvmW, p0, opts, hh, hp0, hD, ?_, ?_⟩
  · intro hr0
    obtain ⟨piv0, hs, ha0⟩ := hm.req hr0
    obtain ⟨e1, e2⟩ := aad_inj ha0 G.haad hea G.str
    subst e2
    refine ⟨?_, e1⟩
    unfold wirePiv
    rw [hpt]
    simp only
    rw [ho]
    simp only
    rw [hpiv]
    obtain ⟨hm1, hm2, _⟩ := (ssn2piv_minimal hs)
    cases piv0 with
    | nil => simp at hm2
    | cons x l => simp only; rw [hm1.1]
  · intro hr0
    obtain ⟨x, rp, rk, hrd, ha0, _⟩ := hm.aad
    obtain ⟨e1, e2⟩ := aad_inj ha0 G.haad hea G.str
    unfold readWrapper at hrd
    rw [if_pos (msgType_response hr0)] at hrd
    obtain ⟨r, hr, hrr⟩ := R.bind_eq_ok.1 hrd
    obtain ⟨rfl, rfl⟩ := Prod.mk.inj (R.ok.inj hrr)
    obtain ⟨g1, g2⟩ := get_outstanding hr
    exact ⟨r, g1, g2, e1⟩

/-- **C61** (responses) The same for responses; moreover the peer protected it for the very request
the receiver has outstanding under that token: the KID and the PIV the peer recorded for the request
it answered are those the receiver recorded when it sent the request.

(If the peer's message is itself a request, then it is the very request, with the same number, that is
outstanding under this token: a request that the receiver has already handled, delivered once more.
This happens, see `C04_false_relabelled`: the outer code is not authenticated.) -/
theorem C61_response_was_sent_partial (cfgS cfgR : Cfg) (C : Crypto) (w0 : World) (h : List Op)
    (h0 : w0.log = [])
    (hok : ∀ inp0 cap0 nvmW p0, Op.protect inp0 cap0 nvmW ∈ h → coapDeserialize inp0 = .ok p0 →
      InnerOk cfgS p0)
    (inp b : Bytes) (cap : Nat) (c c' : Ctx) (p : Pkt) (hp : coapDeserialize inp = .ok p)
    (hrsp : isRequest p = false)
    (hauth : AuthenticFor C c inp (run cfgS C w0 h).log)
    (hdel : oscore2coap cfgR C inp cap c = (.ok b, c')) :
    ∃ h1 h2 inp0 cap0 nvmW p0 opts r, h = h1 ++ Op.protect inp0 cap0 nvmW :: h2 ∧
      coapDeserialize inp0 = .ok p0 ∧ DeliveredAs p p0 b opts ∧
      some r ∈ c.inter ∧ r.token = p.token ∧
      (isRequest p0 = false → ∃ r0, some r0 ∈ (run cfgS C w0 h1).ctx.inter ∧ r0.token = p0.token ∧
        r0.kid = r.kid ∧ r0.piv = r.piv) ∧
      (isRequest p0 = true → r.kid = (run cfgS C w0 h1).ctx.senderId ∧
        ssn2piv (run cfgS C w0 h1).ctx.ssn = .ok r.piv) := by
  obtain ⟨h1, h2, inp0, cap0, nvmW, p0, opts, opt, out, pt, rp, rk, nonce, aad, a, e, hh, hp0, hD, G, hm, hea⟩ :=
    delivered_core cfgS cfgR C w0 h h0 hok inp b cap c c' p hp hauth hdel
  have hread := G.read
  unfold readWrapper at hread
  rw [if_pos (msgType_response hrsp)] at hread
  obtain ⟨r, hr, hrr⟩ := R.bind_eq_ok.1 hread
  obtain ⟨rfl, rfl⟩ := Prod.mk.inj (R.ok.inj hrr)
  obtain ⟨g1, g2⟩ := get_outstanding hr
  refine ⟨h1, h2, inp0, cap0, nvmW, p0, opts, r, hh, hp0, hD, g1, g2, ?_, ?_⟩
  · intro hr0
    obtain ⟨x, rp, rk, hrd, ha0, _⟩ := hm.aad
    obtain ⟨e1, e2⟩ := aad_inj ha0 G.haad hea G.str
    unfold readWrapper at hrd
    rw [if_pos (msgType_response hr0)] at hrd
    obtain ⟨r0, hr0, hrr⟩ := R.bind_eq_ok.1 hrd
    obtain ⟨rfl, rfl⟩ := Prod.mk.inj (R.ok.inj hrr)
    obtain ⟨k1, k2⟩ := get_outstanding hr0
    exact ⟨r0, k1, k2, e1, e2⟩
  · intro hr0
    obtain ⟨piv0, hs, ha0⟩ := hm.req hr0
    obtain ⟨e1, e2⟩ := aad_inj ha0 G.haad hea G.str
    exact ⟨e1.symm, by rw [← e2]; exact hs⟩

/-! ### examples -/

/-- the toy AEAD as an ideal one: it knows only the calls in a list -/
def idealCrypto (L : List (Bytes × Bytes × Bytes × Bytes)) : Crypto :=
  { toyCrypto with
    aeadEnc := fun k n a t p => if (k, n, a, p) ∈ L then toyCrypto.aeadEnc k n a t p else none
    aeadDec := fun k n a t c => match toyCrypto.aeadDec k n a t c with
      | some p => if (k, n, a, p) ∈ L then some p else none
      | none => none }

theorem idealCrypto_lawful (L) : (idealCrypto L).Lawful where
  hmac_len := toyCrypto_lawful.hmac_len
  hash_len := toyCrypto_lawful.hash_len
  dec_enc k n a t p c h := by
    simp only [idealCrypto] at *
    split at h
    · rename_i hin
      rw [toyCrypto_lawful.dec_enc _ _ _ _ _ _ h]
      simp [hin]
    · cases h
  enc_len k n a t p c h := by
    simp only [idealCrypto] at h
    split at h
    · exact toyCrypto_lawful.enc_len _ _ _ _ _ _ h
    · cases h
  dec_len k n a t p c h := by
    simp only [idealCrypto] at h
    split at h
    · rename_i p' hp
      split at h
      · obtain rfl := Option.some.inj h
        exact toyCrypto_lawful.dec_len _ _ _ _ _ _ hp
      · cases h
    · cases h

/-- the only AEAD call of a client that sends `exGet` -/
def exGetCall : EncCall := ((afterSend exCfg (exW exClient) exGet).log)[0]?.getD ⟨[], [], [], [], none⟩

/-- an AEAD for that call alone -/
def exIdeal : Crypto := idealCrypto
  [(exGetCall.key, exGetCall.nonce, (encStructure exGetCall.aad).getD [], exGetCall.pt)]

/-- the client's history -/
def exGetHist : List Op := [.protect exGet 256 none]

/-- the protected request -/
def exGetWire : Bytes := ((step exCfg exIdeal (exW exClient) (.protect exGet 256 none)).1).getD []

/-- the same packet with the option Uri-Path "x" inserted after the OSCORE option -/
def exGetInjected : Bytes := exGetWire.take 9 ++ [0x21, 0x78] ++ exGetWire.drop 9

theorem exGet_authentic (inp : Bytes) :
    AuthenticFor exIdeal exServer inp (run exCfg exIdeal (exW exClient) exGetHist).log := by
  have hlog : (run exCfg exIdeal (exW exClient) exGetHist).log = [exGetCall] := by decide +kernel
  intro nonce a ct pt _ h
  rw [hlog]
  refine ⟨exGetCall, by simp, ?_⟩
  simp only [exIdeal, idealCrypto] at h
  split at h
  · split at h
    · rename_i hin
      obtain rfl := Option.some.inj h
      simp only [List.mem_singleton, Prod.mk.injEq] at hin
      obtain ⟨_, h1, h2, h3⟩ := hin
      exact ⟨h1.symm, by rw [h2]; exact R.eq_getD _ (by decide +kernel), h3.symm⟩
    · cases h
  · cases h

theorem exGetPkt_inner : InnerOk exCfg ((coapDeserialize exGet).getD ⟨0, 0, 0, 0, [], [], []⟩) := by
  constructor <;> decide +kernel

/-- non-vacuity: the client sends GET /tv, the server delivers it, no forged ciphertext is accepted -/
example : (∀ inp0 cap0 nvmW p0, Op.protect inp0 cap0 nvmW ∈ exGetHist → coapDeserialize inp0 = .ok p0 →
      InnerOk exCfg p0) ∧
    (∃ p, coapDeserialize exGetWire = .ok p ∧ isRequest p = true ∧
      AuthenticFor exIdeal exServer exGetWire (run exCfg exIdeal (exW exClient) exGetHist).log) ∧
    (oscore2coap exCfg exIdeal exGetWire 256 exServer).1 = .ok exGet := by
  refine ⟨?_, ⟨(coapDeserialize exGetWire).getD ⟨0, 0, 0, 0, [], [], []⟩, R.eq_getD _ (by decide +kernel),
    by decide +kernel, exGet_authentic _⟩, by decide +kernel⟩
  intro inp0 cap0 nvmW p0 hm hp
  simp only [exGetHist, List.mem_singleton, Op.protect.injEq] at hm
  obtain ⟨rfl, _, _⟩ := hm
  have e : coapDeserialize exGet = .ok ((coapDeserialize exGet).getD ⟨0, 0, 0, 0, [], [], []⟩) :=
    R.eq_getD _ (by decide +kernel)
  rw [R.ok.inj (hp.symm.trans e)]
  exact exGetPkt_inner

/-- the server after it received the request; nothing encrypted yet -/
def exGetServer : World := afterRecv exCfg (exW exServer) exGetWire

/-- the AEAD call of the server's answer -/
def exRspCall : EncCall := ((afterSend exCfg exGetServer exRsp).log)[0]?.getD ⟨[], [], [], [], none⟩

/-- an AEAD for the answer alone -/
def exIdealRsp : Crypto := idealCrypto
  [(exRspCall.key, exRspCall.nonce, (encStructure exRspCall.aad).getD [], exRspCall.pt)]

/-- the protected answer -/
def exRspWire : Bytes := ((step exCfg exIdealRsp exGetServer (.protect exRsp 256 none)).1).getD []

/-- non-vacuity for responses: the client waits for an answer to GET /tv and gets 2.05 "hi" -/
example : (∀ inp0 cap0 nvmW p0, Op.protect inp0 cap0 nvmW ∈ [Op.protect exRsp 256 none] →
      coapDeserialize inp0 = .ok p0 → InnerOk exCfg p0) ∧ exGetServer.log = [] ∧
    (∃ p, coapDeserialize exRspWire = .ok p ∧ isRequest p = false ∧
      AuthenticFor exIdealRsp (afterSend exCfg (exW exClient) exGet).ctx exRspWire
        (run exCfg exIdealRsp exGetServer [.protect exRsp 256 none]).log) ∧
    (oscore2coap exCfg exIdealRsp exRspWire 256 (afterSend exCfg (exW exClient) exGet).ctx).1 = .ok exRsp := by
  refine ⟨?_, by decide +kernel, ⟨(coapDeserialize exRspWire).getD ⟨0, 0, 0, 0, [], [], []⟩,
    R.eq_getD _ (by decide +kernel), by decide +kernel, ?_⟩, by decide +kernel⟩
  · intro inp0 cap0 nvmW p0 hm hp
    simp only [List.mem_singleton, Op.protect.injEq] at hm
    obtain ⟨rfl, _, _⟩ := hm
    have e : coapDeserialize exRsp = .ok ((coapDeserialize exRsp).getD ⟨0, 0, 0, 0, [], [], []⟩) :=
      R.eq_getD _ (by decide +kernel)
    rw [R.ok.inj (hp.symm.trans e)]
    constructor <;> decide +kernel
  · have hlog : (run exCfg exIdealRsp exGetServer [.protect exRsp 256 none]).log = [exRspCall] := by
      decide +kernel
    intro nonce a ct pt _ h
    rw [hlog]
    refine ⟨exRspCall, by simp, ?_⟩
    simp only [exIdealRsp, idealCrypto] at h
    split at h
    · split at h
      · rename_i hin
        obtain rfl := Option.some.inj h
        simp only [List.mem_singleton, Prod.mk.injEq] at hin
        obtain ⟨_, h1, h2, h3⟩ := hin
        exact ⟨h1.symm, by rw [h2]; exact R.eq_getD _ (by decide +kernel), h3.symm⟩
      · cases h
    · cases h

/-- **C61 is false for options of a protected class in the outer part**: RFC 8613 §8.2 step 1 says
that such options must be discarded.  The client sends GET /tv; on the way somebody inserts an
unprotected Uri-Path option "x"; the server accepts the packet and delivers GET /x/tv – a request
for another resource – although the client is the only one who can make ciphertexts. -/
theorem C61_false_injected_option :
    (oscore2coap exCfg exIdeal exGetWire 256 exServer).1 = .ok exGet ∧
    (∀ inp, AuthenticFor exIdeal exServer inp (run exCfg exIdeal (exW exClient) exGetHist).log) ∧
    (oscore2coap exCfg exIdeal exGetInjected 256 exServer).1 =
      .ok (wire 1 0 1 0x01 0x1234 [0x4A] [(11, [0x78]), (11, [0x74, 0x76])] []) :=
  ⟨by decide +kernel, exGet_authentic, by decide +kernel⟩

end Verif
