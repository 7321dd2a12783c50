import Verif.Spec.Proxy
import Verif.Props.OscoreRfc
/-
C86: what CoAP proxies do to a protected message on its way (`Verif.Spec.Proxy`: a new type, message ID and token, and other options for
proxies) does not change what the receiver gets of the message itself.  On C67.
-/
namespace Verif
open Verif.Rfc8613

/-! ### lists of options -/

abbrev OptSorted (l : List (Nat × Bytes)) : Prop := l.Pairwise (fun a b => a.1 ≤ b.1)

theorem weave_nil (l : List (Nat × Bytes)) : weave [] l = l := rfl

theorem weave_right (l : List (Nat × Bytes)) : weave l [] = l := by
  induction l with
  | nil => rfl
  | cons a s ih => show a :: weave s [] = _; rw [ih]

theorem weave_le {a b : Nat × Bytes} {s t : List (Nat × Bytes)} (h : a.1 ≤ b.1) :
    weave (a :: s) (b :: t) = a :: weave s (b :: t) := by
  show weaveOne _ _ _ = _
  unfold weaveOne; rw [if_pos h]

theorem weave_gt {a b : Nat × Bytes} {s t : List (Nat × Bytes)} (h : ¬a.1 ≤ b.1) :
    weave (a :: s) (b :: t) = b :: weave (a :: s) t := by
  show weaveOne _ _ _ = _
  unfold weaveOne; rw [if_neg h]; rfl

theorem weave_ind {P : List (Nat × Bytes) → List (Nat × Bytes) → Prop} (case1 : ∀ l, P [] l) (case2 : ∀ a s, P (a :: s) [])
    (case3 : ∀ a s b t, a.1 ≤ b.1 → P s (b :: t) → P (a :: s) (b :: t))
    (case4 : ∀ a s b t, ¬a.1 ≤ b.1 → P (a :: s) t → P (a :: s) (b :: t)) (a b : List (Nat × Bytes)) : P a b := by
  induction a generalizing b with
  | nil => exact case1 b
  | cons a s ih =>
    induction b with
    | nil => exact case2 a s
    | cons b t ih2 =>
      by_cases h : a.1 ≤ b.1
      · exact case3 a s b t h (ih _)
      · exact case4 a s b t h ih2

theorem weave_mem {a b : List (Nat × Bytes)} {o : Nat × Bytes} (h : o ∈ weave a b) : o ∈ a ∨ o ∈ b := by
  induction a, b using weave_ind with
  | case1 l => exact .inr (by simpa [weave_nil, weave_right] using h)
  | case2 a s => exact .inl (by simpa [weave_nil, weave_right] using h)
  | case3 a s b t hle ih =>
    rw [weave_le hle] at h
    rcases List.mem_cons.1 h with rfl | h
    · exact .inl (by simp)
    · rcases ih h with h | h
      · exact .inl (List.mem_cons_of_mem _ h)
      · exact .inr h
  | case4 a s b t hle ih =>
    rw [weave_gt hle] at h
    rcases List.mem_cons.1 h with rfl | h
    · exact .inr (by simp)
    · rcases ih h with h | h
      · exact .inl h
      · exact .inr (List.mem_cons_of_mem _ h)

theorem weave_sorted {a b : List (Nat × Bytes)} (ha : OptSorted a) (hb : OptSorted b) : OptSorted (weave a b) := by
  induction a, b using weave_ind with
  | case1 l => simpa [weave_nil, weave_right] using hb
  | case2 a s => simpa [weave_nil, weave_right] using ha
  | case3 a s b t hle ih =>
    rw [weave_le hle]
    have h1 := List.pairwise_cons.1 ha
    refine List.pairwise_cons.2 ⟨?_, ih h1.2 hb⟩
    intro o ho
    rcases weave_mem ho with h | h
    · exact h1.1 o h
    · rcases List.mem_cons.1 h with rfl | h
      · exact hle
      · exact Nat.le_trans hle ((List.pairwise_cons.1 hb).1 o h)
  | case4 a s b t hle ih =>
    rw [weave_gt hle]
    have h1 := List.pairwise_cons.1 hb
    refine List.pairwise_cons.2 ⟨?_, ih ha h1.2⟩
    intro o ho
    rcases weave_mem ho with h | h
    · rcases List.mem_cons.1 h with rfl | h
      · omega
      · have := (List.pairwise_cons.1 ha).1 o h; omega
    · exact h1.1 o h

theorem weave_filter (p : Nat × Bytes → Bool) {a b : List (Nat × Bytes)} (ha : ∀ o ∈ a, p o = true) (hb : ∀ o ∈ b, p o = false) :
    (weave a b).filter p = a ∧ (weave a b).filter (fun o => !p o) = b := by
  induction a, b using weave_ind with
  | case1 l =>
    simp only [weave_nil]
    exact ⟨List.filter_eq_nil_iff.2 (fun o ho => by simp [hb o ho]), List.filter_eq_self.2 (fun o ho => by simp [hb o ho])⟩
  | case2 a s =>
    simp only [weave_right]
    exact ⟨List.filter_eq_self.2 ha, List.filter_eq_nil_iff.2 (fun o ho => by simp [ha o ho])⟩
  | case3 a s b t hle ih =>
    rw [weave_le hle]
    have := ih (fun o ho => ha o (List.mem_cons_of_mem _ ho)) hb
    rw [List.filter_cons, List.filter_cons, ha a (by simp)]
    simp [this.1, this.2]
  | case4 a s b t hle ih =>
    rw [weave_gt hle]
    have := ih ha (fun o ho => hb o (List.mem_cons_of_mem _ ho))
    rw [List.filter_cons, List.filter_cons, hb b (by simp)]
    simp [this.1, this.2]

/-- a sorted list is determined by its two parts, if they have no number in common -/
theorem opt_sorted_ext (p : Nat → Bool) {a b : List (Nat × Bytes)} (ha : OptSorted a) (hb : OptSorted b)
    (h1 : a.filter (fun o => p o.1) = b.filter (fun o => p o.1))
    (h2 : a.filter (fun o => !p o.1) = b.filter (fun o => !p o.1)) : a = b := by
  induction a generalizing b with
  | nil =>
    cases b with
    | nil => rfl
    | cons y t =>
      rw [List.filter_cons] at h1 h2
      cases hp : p y.1 <;> simp [hp] at h1 h2
  | cons x s ih =>
    cases b with
    | nil =>
      rw [List.filter_cons] at h1 h2
      cases hp : p x.1 <;> simp [hp] at h1 h2
    | cons y t =>
      have ax := List.pairwise_cons.1 ha
      have by' := List.pairwise_cons.1 hb
      rw [List.filter_cons, List.filter_cons] at h1 h2
      have key : ∀ u v : Nat × Bytes, ∀ l k : List (Nat × Bytes), p u.1 = true → p v.1 = false →
          u :: l.filter (fun o => p o.1) = k.filter (fun o => p o.1) → u ∈ k := by
        intro u v l k hu hv h
        have : u ∈ k.filter (fun o => p o.1) := by rw [← h]; simp
        exact (List.mem_filter.1 this).1
      cases hx : p x.1 <;> cases hy : p y.1
      · simp only [hx, hy, Bool.false_eq_true, if_false, Bool.not_false, if_true, List.cons.injEq] at h1 h2
        rw [h2.1, ih ax.2 by'.2 h1 h2.2]
      · simp only [hx, hy, Bool.false_eq_true, if_false, Bool.not_false, Bool.not_true, if_true] at h1 h2
        have m1 : y ∈ s := key y x t s hy hx h1.symm
        have m2 : x ∈ t := by
          have : x ∈ t.filter (fun o => !p o.1) := by rw [← h2]; simp
          exact (List.mem_filter.1 this).1
        have := ax.1 y m1
        have := by'.1 x m2
        have e : x.1 = y.1 := by omega
        rw [e, hy] at hx; cases hx
      · simp only [hx, hy, Bool.false_eq_true, if_false, Bool.not_false, Bool.not_true, if_true] at h1 h2
        have m1 : x ∈ t := key x y s t hx hy h1
        have m2 : y ∈ s := by
          have : y ∈ s.filter (fun o => !p o.1) := by rw [h2]; simp
          exact (List.mem_filter.1 this).1
        have := ax.1 y m2
        have := by'.1 x m1
        have e : x.1 = y.1 := by omega
        rw [e, hy] at hx; cases hx
      · simp only [hx, hy, Bool.false_eq_true, if_false, Bool.not_true, if_true, List.cons.injEq] at h1 h2
        rw [h1.1, ih ax.2 by'.2 h1.2 h2]

theorem insertOscore_eq (v : Bytes) {l : List (Nat × Bytes)} (h : OptSorted l) :
    insertOscore v l = l.filter (fun o => decide (o.1 ≤ 9)) ++ [(9, v)] ++ l.filter (fun o => !decide (o.1 ≤ 9)) := by
  have : l.takeWhile (fun o => decide (o.1 ≤ 9)) = l.filter (fun o => decide (o.1 ≤ 9)) ∧
      l.dropWhile (fun o => decide (o.1 ≤ 9)) = l.filter (fun o => !decide (o.1 ≤ 9)) := by
    induction l with
    | nil => simp
    | cons a l ih =>
      have hh := List.pairwise_cons.1 h
      have := ih hh.2
      rw [List.takeWhile_cons, List.dropWhile_cons, List.filter_cons, List.filter_cons]
      by_cases h9 : a.1 ≤ 9
      · simp [h9, this.1, this.2]
      · have : ∀ o ∈ l, ¬ o.1 ≤ 9 := fun o ho => by have := hh.1 o ho; omega
        simp only [decide_eq_false h9, Bool.false_eq_true, if_false, Bool.not_false, if_true]
        refine ⟨(List.filter_eq_nil_iff.2 (fun o ho => by simp [this o ho])).symm, ?_⟩
        rw [List.filter_eq_self.2 (fun o ho => by simp; exact Nat.lt_of_not_le (this o ho))]
  unfold insertOscore
  rw [this.1, this.2]

theorem insertOscore_sorted (v : Bytes) {l : List (Nat × Bytes)} (h : OptSorted l) : OptSorted (insertOscore v l) := by
  rw [insertOscore_eq v h]
  refine List.pairwise_append.2 ⟨List.pairwise_append.2 ⟨h.filter _, by simp, ?_⟩, h.filter _, ?_⟩
  · intro a ha b hb
    have := (List.mem_filter.1 ha).2
    simp only [List.mem_singleton] at hb
    subst hb
    simpa using this
  · intro a ha b hb
    have h2 := (List.mem_filter.1 hb).2
    simp only [Bool.not_eq_true', decide_eq_false_iff_not] at h2
    rcases List.mem_append.1 ha with h1 | h1
    · have := (List.mem_filter.1 h1).2
      simp only [decide_eq_true_eq] at this
      omega
    · simp only [List.mem_singleton] at h1
      subst h1
      simp only
      omega

theorem insertOscore_filter (v : Bytes) (p : Nat → Bool) (h9 : p 9 = true) {l : List (Nat × Bytes)} (h : OptSorted l) :
    (insertOscore v l).filter (fun o => p o.1) = insertOscore v (l.filter (fun o => p o.1)) := by
  rw [insertOscore_eq v h, insertOscore_eq v (h.filter _)]
  simp only [List.filter_append, List.filter_filter, List.filter_cons, h9, if_true, List.filter_nil]
  congr 2
  · congr 1; funext o; exact Bool.and_comm _ _
  · funext o; exact Bool.and_comm _ _

theorem insertOscore_filter_out (v : Bytes) (p : Nat → Bool) (h9 : p 9 = false) (l : List (Nat × Bytes)) :
    (insertOscore v l).filter (fun o => p o.1) = l.filter (fun o => p o.1) := by
  unfold insertOscore
  simp only [List.filter_append, List.filter_cons, h9, Bool.false_eq_true, if_false, List.filter_nil, List.append_nil]
  rw [← List.filter_append, List.takeWhile_append_dropWhile]

/-! ### a message in other wrapping -/

theorem proxy_classU {n : Nat} (h : proxyOption n) : classU n := by
  unfold proxyOption at h; unfold classU; omega

theorem proxyOpts_mem {m : Msg} {o : Nat × Bytes} (h : o ∈ m.proxyOpts) : proxyOption o.1 := by
  have := (List.mem_filter.1 h).2
  simpa using this

theorem endToEnd_mem {m : Msg} {o : Nat × Bytes} (h : o ∈ m.endToEnd) : ¬proxyOption o.1 := by
  have := (List.mem_filter.1 h).2
  simpa using this

theorem inWrapping_parts (y m : Msg) : (y.inWrapping m).proxyOpts = y.proxyOpts ∧ (y.inWrapping m).endToEnd = m.endToEnd := by
  have := weave_filter (fun o => decide (proxyOption o.1)) (a := y.proxyOpts) (b := m.endToEnd)
    (fun o ho => decide_eq_true (proxyOpts_mem ho)) (fun o ho => decide_eq_false (endToEnd_mem ho))
  exact this

theorem inWrapping_sorted {y m : Msg} (hy : OptSorted y.opts) (hm : OptSorted m.opts) : OptSorted (y.inWrapping m).opts :=
  weave_sorted (hy.filter _) (hm.filter _)

theorem observes_endToEnd (m : Msg) : m.observes ↔ ∃ o ∈ m.endToEnd, o.1 = 6 := by
  constructor
  · rintro ⟨o, ho, h6⟩
    refine ⟨o, List.mem_filter.2 ⟨ho, ?_⟩, h6⟩
    rw [h6]; rfl
  · rintro ⟨o, ho, h6⟩
    exact ⟨o, (List.mem_filter.1 ho).1, h6⟩

theorem inWrapping_observes (y m : Msg) : (y.inWrapping m).observes ↔ m.observes := by
  rw [observes_endToEnd, observes_endToEnd, (inWrapping_parts y m).2]

theorem inWrapping_isReq (y m : Msg) : (y.inWrapping m).isReq ↔ m.isReq := Iff.rfl

theorem inWrapping_outerCode (y m : Msg) : (y.inWrapping m).outerCode = m.outerCode := by
  unfold Msg.outerCode
  simp only [inWrapping_observes, inWrapping_isReq]

theorem filterMap_filter' {f : Nat × Bytes → Option (Nat × Bytes)} {p : Nat × Bytes → Bool} {l : List (Nat × Bytes)}
    (h : ∀ o, p o = false → f o = none) : (l.filter p).filterMap f = l.filterMap f := by
  induction l with
  | nil => rfl
  | cons a l ih =>
    rw [List.filter_cons]
    cases hp : p a
    · simp only [Bool.false_eq_true, if_false]
      rw [List.filterMap_cons, h a hp, ih]
    · simp only [if_true]
      rw [List.filterMap_cons, List.filterMap_cons, ih]

theorem inner_endToEnd (m : Msg) : m.inner = m.endToEnd.filterMap (innerOption m.isReq) := by
  unfold Msg.inner Msg.endToEnd
  rw [filterMap_filter']
  intro o ho
  have hp : proxyOption o.1 := by simpa using ho
  unfold innerOption
  rw [if_neg (by unfold proxyOption at hp; omega), if_pos (proxy_classU hp)]

theorem inWrapping_plaintext (y m : Msg) : (y.inWrapping m).plaintext = m.plaintext := by
  have : (y.inWrapping m).inner = m.inner := by
    rw [inner_endToEnd, inner_endToEnd, (inWrapping_parts y m).2]; rfl
  unfold Msg.plaintext
  rw [this]; rfl

theorem outer_sorted {m : Msg} (h : OptSorted m.opts) : OptSorted m.outer := h.filter _

theorem outer_proxy (m : Msg) : m.outer.filter (fun o => decide (proxyOption o.1)) = m.proxyOpts := by
  unfold Msg.outer Msg.proxyOpts
  rw [List.filter_filter]
  apply List.filter_congr
  intro o _
  by_cases hp : proxyOption o.1
  · simp [hp, proxy_classU hp]
  · simp [hp]

theorem outer_rest (m : Msg) : m.outer.filter (fun o => !decide (proxyOption o.1)) =
    m.endToEnd.filter (fun o => decide (classU o.1 ∨ o.1 = 6)) := by
  unfold Msg.outer Msg.endToEnd
  rw [List.filter_filter, List.filter_filter]
  congr 1
  funext o
  exact Bool.and_comm _ _

/-- what a proxy has made of the OSCORE message for `m` is the OSCORE message for `m` in the wrapping of the proxy -/
theorem forwarded_outer {m y : Msg} {v ct : Bytes} (hm : OptSorted m.opts) (hf : Forwarded (m.outerMsg v ct) y) :
    (y.inWrapping m).outerMsg v ct = y := by
  have hs := inWrapping_sorted hf.sorted hm
  have hopts : insertOscore v (y.inWrapping m).outer = y.opts := by
    apply opt_sorted_ext (fun n => decide (proxyOption n)) (insertOscore_sorted v (outer_sorted hs)) hf.sorted
    · rw [insertOscore_filter_out v (fun n => decide (proxyOption n)) (by decide), outer_proxy, (inWrapping_parts y m).1]; rfl
    · rw [insertOscore_filter v (fun n => !decide (proxyOption n)) (by decide) (outer_sorted hs), outer_rest,
        (inWrapping_parts y m).2, ← outer_rest,
        ← insertOscore_filter v (fun n => !decide (proxyOption n)) (by decide) (outer_sorted hm)]
      exact hf.endToEnd.symm
  have hcode := hf.code
  have hpay := hf.payload
  unfold Msg.outerMsg at hcode hpay ⊢
  rw [hopts, inWrapping_outerCode]
  simp only at hcode hpay
  rw [← hcode, ← hpay]
  rfl

theorem forwarded_request {C : Crypto} {key iv id piv : Bytes} {kctx : Option Bytes} {m x y : Msg} (hm : OptSorted m.opts)
    (hx : requestMsg C key iv id piv kctx m = some x) (hf : Forwarded x y) :
    request C key iv id piv kctx (y.inWrapping m) = some y.wire := by
  unfold requestMsg at hx
  unfold request Rfc8613.protect
  rw [inWrapping_plaintext]
  cases hc : C.aeadEnc key (nonce id piv iv) (aad id piv) 8 m.plaintext with
  | none => rw [hc] at hx; cases hx
  | some ct =>
    rw [hc] at hx
    have := Option.some.inj hx
    subst this
    simp only [Option.map_some]
    rw [forwarded_outer hm hf]

theorem forwarded_response {C : Crypto} {key iv kid piv : Bytes} {kctx kid' : Option Bytes} {m x y : Msg} (hm : OptSorted m.opts)
    (hx : responseMsg C key iv kid piv kctx kid' m = some x) (hf : Forwarded x y) :
    responseSameNonce C key iv kid piv kctx kid' (y.inWrapping m) = some y.wire := by
  unfold responseMsg at hx
  unfold responseSameNonce Rfc8613.protect
  rw [inWrapping_plaintext]
  cases hc : C.aeadEnc key (nonce kid piv iv) (aad kid piv) 8 m.plaintext with
  | none => rw [hc] at hx; cases hx
  | some ct =>
    rw [hc] at hx
    have := Option.some.inj hx
    subst this
    simp only [Option.map_some]
    rw [forwarded_outer hm hf]

theorem forwarded_notification {C : Crypto} {key iv id own kid piv : Bytes} {kctx kid' : Option Bytes} {m x y : Msg}
    (hm : OptSorted m.opts) (hx : notificationMsg C key iv id own kid piv kctx kid' m = some x) (hf : Forwarded x y) :
    responseNewPiv C key iv id own kid piv kctx kid' (y.inWrapping m) = some y.wire := by
  unfold notificationMsg at hx
  unfold responseNewPiv Rfc8613.protect
  rw [inWrapping_plaintext]
  cases hc : C.aeadEnc key (nonce id own iv) (aad kid piv) 8 m.plaintext with
  | none => rw [hc] at hx; cases hx
  | some ct =>
    rw [hc] at hx
    have := Option.some.inj hx
    subst this
    simp only [Option.map_some]
    rw [forwarded_outer hm hf]

theorem request_msg {C : Crypto} {key iv id piv b : Bytes} {kctx : Option Bytes} {m : Msg}
    (h : request C key iv id piv kctx m = some b) : ∃ x, requestMsg C key iv id piv kctx m = some x ∧ b = x.wire := by
  obtain ⟨ct, hc, rfl⟩ := protect_some h
  exact ⟨_, by unfold requestMsg; rw [hc]; rfl, rfl⟩

theorem response_msg {C : Crypto} {key iv kid piv b : Bytes} {kctx kid' : Option Bytes} {m : Msg}
    (h : responseSameNonce C key iv kid piv kctx kid' m = some b) :
    ∃ x, responseMsg C key iv kid piv kctx kid' m = some x ∧ b = x.wire := by
  obtain ⟨ct, hc, rfl⟩ := protect_some h
  exact ⟨_, by unfold responseMsg; rw [hc]; rfl, rfl⟩

/-! ### C86 -/

/-- **C86** What the receiver gets, `y.inWrapping m`, is the message `m` as far as it is end to end: code, payload and all
options that are not for proxies, in the right order; type, message ID, token and the options for proxies are those of the packet that
arrived. -/
theorem C86_end_to_end (m y : Msg) (hm : m.opts.Pairwise (fun a b => a.1 ≤ b.1)) (hy : y.opts.Pairwise (fun a b => a.1 ≤ b.1)) :
    (y.inWrapping m).code = m.code ∧ (y.inWrapping m).payload = m.payload ∧ (y.inWrapping m).endToEnd = m.endToEnd ∧
      (y.inWrapping m).proxyOpts = y.proxyOpts ∧ (y.inWrapping m).opts.Pairwise (fun a b => a.1 ≤ b.1) ∧
      (y.inWrapping m).type = y.type ∧ (y.inWrapping m).mid = y.mid ∧ (y.inWrapping m).token = y.token :=
  ⟨rfl, rfl, (inWrapping_parts y m).2, (inWrapping_parts y m).1, inWrapping_sorted hy hm, rfl, rfl, rfl⟩

/-- **C86** If proxies leave the packet alone the message itself is delivered. -/
theorem C86_no_proxy (m : Msg) (v ct : Bytes) (hm : m.opts.Pairwise (fun a b => a.1 ≤ b.1)) :
    (m.outerMsg v ct).inWrapping m = m := by
  have hp : (m.outerMsg v ct).proxyOpts = m.proxyOpts := by
    show (insertOscore v m.outer).filter _ = _
    rw [insertOscore_filter_out v (fun n => decide (proxyOption n)) (by decide), outer_proxy]
  have ho : weave (m.outerMsg v ct).proxyOpts m.endToEnd = m.opts := by
    have h := weave_filter (fun o => decide (proxyOption o.1)) (a := (m.outerMsg v ct).proxyOpts) (b := m.endToEnd)
      (fun o ho => decide_eq_true (proxyOpts_mem ho)) (fun o ho => decide_eq_false (endToEnd_mem ho))
    apply opt_sorted_ext (fun n => decide (proxyOption n)) _ hm
    · rw [h.1, hp]; rfl
    · rw [h.2]; rfl
    · rw [hp]; exact weave_sorted (hm.filter _) (hm.filter _)
  unfold Msg.inWrapping
  rw [ho]
  rfl

/-- **C86** A protected request that has passed through proxies is delivered as the request that was protected, and the server remembers
it for the response under the token the packet had when it arrived. -/
theorem C86_request_partial (cfg : Cfg) (C : Crypto) (hC : C.Lawful) (m x y : Msg) (piv : Bytes) (kctx : Option Bytes)
    (cap : Nat) (srv : Ctx)
    (hrq : requestMsg C srv.recipientKey srv.commonIv srv.recipientId piv kctx m = some x) (hm : m.opts.Pairwise (fun a b => a.1 ≤ b.1))
    (hreq : m.isReq) (hfw : Forwarded x y) (hfit : (y.inWrapping m).Fits cfg)
    (huri : uriRoom (y.inWrapping m) < cfg.uriMax) (hb : y.wire.length < 65536)
    (hp : 1 ≤ piv.length ∧ piv.length ≤ 5) (hid : srv.recipientId.length + piv.length ≤ 7)
    (hv : (optionValue piv kctx (some srv.recipientId)).length ≤ 255) (hiv : srv.commonIv.length = 13)
    (hssn : srv.ssn < 0x7FFFFF) (hsync : srv.echo = .synchronized) (hfresh : srv.window.valid (beVal piv) = true)
    (hdis : Distinct srv.inter) (hroom : HasRoom srv.inter y.token) (hcap : (y.inWrapping m).wire.length ≤ cap) :
    ∃ srv', oscore2coap cfg C y.wire cap srv = (.ok (y.inWrapping m).wire, srv') ∧
      Remembers srv'.inter y.token srv.recipientId piv := by
  obtain ⟨s, h1, h2, _⟩ := C67_receive_request_partial cfg C hC (y.inWrapping m) y.wire piv kctx cap srv
    (forwarded_request hm hrq hfw) hfit hreq huri hb hp hid hv hiv hssn hsync hfresh hdis hroom hcap
  exact ⟨s, h1, h2⟩

/-- **C86** A protected response that has passed through proxies, and arrives with the token of the request, is delivered as the response
that was protected. -/
theorem C86_response_partial (cfg : Cfg) (C : Crypto) (hC : C.Lawful) (m x y : Msg) (kid piv : Bytes)
    (kctx kid' : Option Bytes) (cap : Nat) (cl : Ctx)
    (hrs : responseMsg C cl.recipientKey cl.commonIv kid piv kctx kid' m = some x) (hm : m.opts.Pairwise (fun a b => a.1 ≤ b.1))
    (hfw : Forwarded x y)
    (hlast : cl.nonce = nonce kid piv cl.commonIv) (hobs : ¬m.observes)
    (hfit : (y.inWrapping m).Fits cfg) (hrsp : ¬m.isReq) (huri : uriRoom (y.inWrapping m) < cfg.uriMax) (hb : y.wire.length < 65536)
    (hid : kid.length + piv.length ≤ 7)
    (hv : (optionValue [] kctx kid').length ≤ 255) (hiv : cl.commonIv.length = 13)
    (hssn : cl.ssn < 0x7FFFFF) (hdis : Distinct cl.inter) (hrem : Remembers cl.inter y.token kid piv)
    (hcap : (y.inWrapping m).wire.length ≤ cap) :
    ∃ cl', oscore2coap cfg C y.wire cap cl = (.ok (y.inWrapping m).wire, cl') :=
  C67_receive_response_partial cfg C hC (y.inWrapping m) y.wire kid piv kctx kid' cap cl (forwarded_response hm hrs hfw) hlast
    (by rw [inWrapping_observes]; exact hobs) hfit hrsp huri hb hid hv hiv hssn hdis hrem hcap

/-- **C86** The same for notifications (delivered with an empty Observe value, like all notifications: `C67`). -/
theorem C86_notification_partial (cfg : Cfg) (C : Crypto) (hC : C.Lawful) (m x y : Msg) (own kid piv : Bytes)
    (kctx kid' : Option Bytes) (cap : Nat) (cl : Ctx)
    (hrs : notificationMsg C cl.recipientKey cl.commonIv cl.recipientId own kid piv kctx kid' m = some x)
    (hm : m.opts.Pairwise (fun a b => a.1 ≤ b.1)) (hfw : Forwarded x y)
    (hkid : kid' = some cl.recipientId ∨ kid' = none ∧ cl.recipientId = [])
    (hnew : m.observes → cl.notifInit = true → cl.notifNum < beVal own)
    (hfit : (y.inWrapping m).Fits cfg) (hrsp : ¬m.isReq) (huri : uriRoom (y.inWrapping m) < cfg.uriMax) (hb : y.wire.length < 65536)
    (hp : 1 ≤ own.length ∧ own.length ≤ 5) (hrid : cl.recipientId.length ≤ 7) (hid : kid.length + piv.length ≤ 7)
    (hv : (optionValue own kctx kid').length ≤ 255) (hiv : cl.commonIv.length = 13)
    (hssn : cl.ssn < 0x7FFFFF) (hdis : Distinct cl.inter) (hrem : Remembers cl.inter y.token kid piv)
    (hcap : (delivered (y.inWrapping m)).wire.length ≤ cap) :
    ∃ cl', oscore2coap cfg C y.wire cap cl = (.ok (delivered (y.inWrapping m)).wire, cl') :=
  C67_receive_notification_partial cfg C hC (y.inWrapping m) y.wire own kid piv kctx kid' cap cl (forwarded_notification hm hrs hfw) hkid
    (by rw [inWrapping_observes]; exact hnew) hfit hrsp huri hb hp hrid hid hv hiv hssn hdis hrem hcap

/-- **C86** A whole exchange of two endpoints that use the library, with any proxies in between.  The client protects `m`; what it sends is
`x`.  Whatever proxies make of `x`, the server gets `m` in the wrapping of the packet `y` that arrives.  The answer `a` the server gives
to it (with the token of `y`) goes out as `x'`.  Whatever proxies make of `x'`, if it comes back with the token of `m` the client gets `a`
in the wrapping of the packet `y'` that arrives. -/
theorem C86_exchange_partial (cfg : Cfg) (C : Crypto) (hC : C.Lawful) (m : Msg) (b : Bytes) (cap : Nat) (nvmW : Option Err)
    (w w' : World) (srv : Ctx)
    (hsend : coap2oscore cfg C nvmW m.wire cap w = (.ok b, w')) (hfit : m.Fits cfg) (hreq : m.isReq)
    (hack : ¬(m.type = 2 ∧ m.code = 0)) (hiv : w.ctx.commonIv.length = 13) (hdis : Distinct w.ctx.inter)
    (hssn : w.ctx.ssn + 1 < 0x7FFFFF)
    (hkey : srv.recipientKey = w.ctx.senderKey) (hkey' : srv.senderKey = w.ctx.recipientKey) (hcom : srv.commonIv = w.ctx.commonIv)
    (hids : srv.recipientId = w.ctx.senderId) (hsrv : srv.ssn < 0x7FFFFF) (hsync : srv.echo = .synchronized)
    (hfresh : srv.window.valid w.ctx.ssn = true) (hdisS : Distinct srv.inter) :
    ∃ (x : Msg) (piv : Bytes), b = x.wire ∧ Spec.IsMinimalBE piv w.ctx.ssn ∧
      requestMsg C w.ctx.senderKey w.ctx.commonIv w.ctx.senderId piv (kidContext w.ctx.idContext) m = some x ∧
      ∀ (y : Msg) (capS : Nat), Forwarded x y → (y.inWrapping m).Fits cfg → uriRoom (y.inWrapping m) < cfg.uriMax →
        y.wire.length < 65536 → HasRoom srv.inter y.token → (y.inWrapping m).wire.length ≤ capS →
        ∃ srv', oscore2coap cfg C y.wire capS srv = (.ok (y.inWrapping m).wire, srv') ∧
          ∀ (a : Msg) (rb : Bytes) (capR : Nat) (nvmR : Option Err) (nvm : Nat) (log : List EncCall) (v' : World),
            a.Fits cfg → ¬a.isReq → ¬a.observes → a.token = y.token →
            coap2oscore cfg C nvmR a.wire capR ⟨srv', nvm, log⟩ = (.ok rb, v') →
            ∃ x' : Msg, rb = x'.wire ∧ responseMsg C srv.senderKey srv.commonIv w.ctx.senderId piv none none a = some x' ∧
              ∀ (y' : Msg) (capC : Nat), Forwarded x' y' → y'.token = m.token → (y'.inWrapping a).Fits cfg →
                uriRoom (y'.inWrapping a) < cfg.uriMax → y'.wire.length < 65536 → (y'.inWrapping a).wire.length ≤ capC →
                ∃ cl', oscore2coap cfg C y'.wire capC w'.ctx = (.ok (y'.inWrapping a).wire, cl') := by
  obtain ⟨piv, hmin, hrq⟩ := C67_request cfg C nvmW m b cap w w' hsend hfit hreq hack hiv
  obtain ⟨v, hv⟩ := protect_ok hsend (parse_wire hfit) (not_ack hack)
  have hr : isRequest m.pkt = true := by rw [isRequest_pkt]; exact decide_eq_true hreq
  have hty := msgType_request hr
  have hnew : v.new = true := by
    rw [hv.new]; unfold needsNewPiv
    simp [hty.1]
  obtain ⟨hpiv, hkid, hkctx, hnonce, _⟩ := hv.ifNew hnew
  have hpe : v.piv = piv := Spec.IsMinimalBE.unique (ssn2piv_minimal hpiv).1 hmin
  have hread := hv.read
  unfold readWrapper at hread
  rw [if_neg (by rintro (h | h); exact hty.1 h; exact hty.2 h)] at hread
  simp only [R.ok.injEq, Prod.mk.injEq] at hread
  obtain ⟨hrp, hrk⟩ := hread
  have hpl := (ssn2piv_minimal hpiv).2
  have hid : w.ctx.senderId.length + piv.length ≤ 7 := by
    have hct := hv.ct
    unfold coseEncrypt at hct
    obtain ⟨e, he, _⟩ := R.bind_eq_ok.1 hct
    have hn := createNonce_ok.1 hnonce
    have := (C26_aad_iff (kid := v.rk) (piv := v.rp) (by rw [← hrk, hkid]; omega) (by rw [← hrp]; omega)).1
      ⟨e, by rw [hv.aad, R.ok_bind]; exact he⟩
    rw [← hrk, ← hrp, hkid, hpe] at this
    exact this
  have hov : (optionValue piv (kidContext w.ctx.idContext) (some w.ctx.senderId)).length ≤ 255 := by
    have hopt := hv.opt
    rcases C19_generate_rfc8613 v.piv v.kid v.kctx with ⟨h1, _⟩ | ⟨_, h2⟩
    · rw [oscoreValue_eq (ssn2piv_ne hpiv), hkctx, hkid, hpe] at h1
      omega
    · rw [h2] at hopt; cases hopt
  rw [hpe] at hpl
  obtain ⟨x, hx, rfl⟩ := request_msg hrq
  refine ⟨x, piv, rfl, hmin, hx, ?_⟩
  intro y capS hfw hyfit huri hyb hroom hcapS
  have hrq' : request C srv.recipientKey srv.commonIv srv.recipientId piv (kidContext w.ctx.idContext) (y.inWrapping m) = some y.wire := by
    rw [hkey, hcom, hids]
    exact forwarded_request hfit.sorted hx hfw
  have hval : srv.window.valid (beVal piv) = true := by rw [hmin.1]; exact hfresh
  have hp : 1 ≤ piv.length ∧ piv.length ≤ 5 := ⟨by have := ssn2piv_ne hpiv; rw [hpe] at this; exact List.length_pos_iff.2 this, by omega⟩
  refine ⟨(oscore2coap cfg C y.wire capS srv).2, ?_, ?_⟩
  · obtain ⟨s, h1, _⟩ := C67_receive_request_partial cfg C hC (y.inWrapping m) y.wire piv _ capS srv hrq' hyfit hreq huri hyb hp
      (by rw [hids]; exact hid) (by rw [hids]; exact hov) (by rw [hcom]; exact hiv) hsrv hsync hval hdisS hroom hcapS
    rw [h1]
  · intro a rb capR nvmR nvm log v' hafit hrsp hobs htok hans
    have hserve := (C67_serve_partial cfg C hC (y.inWrapping m) a y.wire rb piv _ capS capR nvmR srv _ nvm log v' hrq' hyfit hreq huri hyb hp
      (by rw [hids]; exact hid) (by rw [hids]; exact hov) (by rw [hcom]; exact hiv) hsrv hsync hval hdisS hroom hcapS rfl hafit hrsp
      htok hobs hans).2
    rw [hkey', hcom, hids] at hserve
    obtain ⟨x', hx', rfl⟩ := response_msg hserve
    refine ⟨x', rfl, by rw [hkey', hcom]; exact hx', ?_⟩
    intro y' capC hfw' htok' hy'fit huri' hy'b hcapC
    obtain ⟨piv2, hmin2, _, hask⟩ := C67_ask_partial cfg C hC m (y'.inWrapping a) x.wire cap capC nvmW w w' hsend hfit hreq hack hiv hdis hssn
      hy'fit hrsp htok' (by rw [inWrapping_observes]; exact hobs) huri' hcapC
    have he : piv2 = piv := Spec.IsMinimalBE.unique hmin2 hmin
    subst he
    exact hask none none y'.wire (forwarded_response hafit.sorted hx' hfw') hy'b (by decide)

/-! ### non-vacuity: a GET to a proxy, which forwards it under another token and consumes Proxy-Scheme -/

/-- GET, token 0x4A, Uri-Host "h", Uri-Path "tv", Proxy-Scheme "coap" -/
def exProxied : Msg := ⟨1, 0, 0x01, 0x1234, [0x4A], [(3, [0x68]), (11, [0x74, 0x76]), (39, [0x63, 0x6F, 0x61, 0x70])], []⟩

theorem exProxied_fits : exProxied.Fits exCfg := by constructor <;> decide +kernel

/-- the OSCORE message the example client sends -/
def exProxiedOut : Msg :=
  (requestMsg toyCrypto exClient.senderKey exClient.commonIv exClient.senderId [0x00] (kidContext exClient.idContext) exProxied).getD exProxied

/-- what the proxy makes of it: its own token and message ID, another Uri-Host, no Proxy-Scheme -/
def exForwarded : Msg :=
  { exProxiedOut with mid := 7, token := [0x01, 0x02], opts := weave [(3, [0x78])] exProxiedOut.endToEnd }

/-- the answer of the server -/
def exAnswer : Msg := ⟨1, 2, 0x45, 7, [0x01, 0x02], [], [0x68, 0x69]⟩

example : Forwarded exProxiedOut exForwarded ∧ (exForwarded.inWrapping exProxied).Fits exCfg ∧
    exForwarded.inWrapping exProxied = ⟨1, 0, 0x01, 7, [0x01, 0x02], [(3, [0x78]), (11, [0x74, 0x76])], []⟩ :=
  ⟨by constructor <;> decide +kernel, by constructor <;> decide +kernel, by decide +kernel⟩

theorem exForwarded_ok : Forwarded exProxiedOut exForwarded := by constructor <;> decide +kernel

/-- the OSCORE message of the example server, and what the proxy makes of it -/
def exAnswerOut : Msg :=
  (responseMsg toyCrypto exServer.senderKey exServer.commonIv exClient.senderId [0x00] none none exAnswer).getD exAnswer
def exReturned : Msg := { exAnswerOut with token := [0x4A], mid := 0x1234 }

theorem exReturned_ok : Forwarded exAnswerOut exReturned := by constructor <;> decide +kernel

/-- `C86_exchange_partial`: the server gets the GET, the client gets the answer -/
example : ∃ (srv' cl' : Ctx) (rb : Bytes) (v' : World),
    oscore2coap exCfg toyCrypto exForwarded.wire 256 exServer = (.ok (exForwarded.inWrapping exProxied).wire, srv') ∧
    coap2oscore exCfg toyCrypto none exAnswer.wire 256 ⟨srv', 0, []⟩ = (.ok rb, v') ∧ rb = exAnswerOut.wire ∧
    oscore2coap exCfg toyCrypto exReturned.wire 256 (afterSend exCfg (exW exClient) exProxied.wire).ctx =
      (.ok { exAnswer with token := [0x4A], mid := 0x1234 }.wire, cl') := by
  have hinS : exServer.inter = Table.init 3 := by decide +kernel
  have hdS : Distinct exServer.inter := by rw [hinS]; exact distinct_init 3
  have hinC : (exW exClient).ctx.inter = Table.init 3 := by decide +kernel
  have hdC : Distinct (exW exClient).ctx.inter := by rw [hinC]; exact distinct_init 3
  obtain ⟨x, piv, _, hmin, hx, h⟩ := C86_exchange_partial exCfg toyCrypto toyCrypto_lawful exProxied
    (sendOf exCfg (exW exClient) exProxied.wire) 256 none
    (exW exClient) (afterSend exCfg (exW exClient) exProxied.wire) exServer (by decide +kernel) exProxied_fits (by decide) (by decide)
    (by decide +kernel) hdC (by decide +kernel) (by decide +kernel) (by decide +kernel) (by decide +kernel) (by decide +kernel)
    (by decide +kernel) (by decide +kernel) (by decide +kernel) hdS
  have hpiv : piv = [0x00] := Spec.IsMinimalBE.unique hmin (by
    have : (exW exClient).ctx.ssn = 0 := by decide +kernel
    rw [this]; exact ⟨by decide, by decide, by decide⟩)
  subst hpiv
  have hxe : x = exProxiedOut := by
    have : requestMsg toyCrypto (exW exClient).ctx.senderKey (exW exClient).ctx.commonIv (exW exClient).ctx.senderId [0x00]
        (kidContext (exW exClient).ctx.idContext) exProxied = some exProxiedOut := by decide +kernel
    rw [this] at hx
    exact (Option.some.inj hx).symm
  subst hxe
  obtain ⟨srv', h1, h2⟩ := h exForwarded 256 exForwarded_ok (by constructor <;> decide +kernel) (by decide +kernel) (by decide +kernel)
    (by rw [hinS]; exact ⟨by decide, by intro r h; simp [Table.init] at h⟩) (by decide +kernel)
  have hs : srv' = (oscore2coap exCfg toyCrypto exForwarded.wire 256 exServer).2 := by rw [h1]
  obtain ⟨rb, v', hrb⟩ : ∃ rb v', coap2oscore exCfg toyCrypto none exAnswer.wire 256 ⟨srv', 0, []⟩ = (.ok rb, v') := by
    refine ⟨exAnswerOut.wire, (coap2oscore exCfg toyCrypto none exAnswer.wire 256 ⟨srv', 0, []⟩).2, ?_⟩
    rw [hs]
    decide +kernel
  obtain ⟨x', hr, hx', h3⟩ := h2 exAnswer rb 256 none 0 [] v' (by constructor <;> decide +kernel) (by decide) (by decide) rfl hrb
  have hxe' : x' = exAnswerOut := by
    have : responseMsg toyCrypto exServer.senderKey exServer.commonIv (exW exClient).ctx.senderId [0x00] none none exAnswer =
        some exAnswerOut := by decide +kernel
    rw [this] at hx'
    exact (Option.some.inj hx').symm
  subst hxe'
  obtain ⟨cl', h4⟩ := h3 exReturned 256 exReturned_ok rfl (by constructor <;> decide +kernel) (by decide +kernel) (by decide +kernel)
    (by decide +kernel)
  refine ⟨srv', cl', rb, v', h1, hrb, hr, ?_⟩
  rw [h4]
  have : exReturned.inWrapping exAnswer = { exAnswer with token := [0x4A], mid := 0x1234 } := by decide +kernel
  rw [this]

end Verif
