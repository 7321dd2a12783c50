import Verif.Lemmas.Rfc8613Lemmas
import Verif.Lemmas.Examples
/-
C67: the packets of the library are those of RFC 8613 (Spec/Rfc8613.lean), and the packets of any other implementation
of RFC 8613 are understood.
-/
namespace Verif
open Verif.Rfc8613

/-! ### the OSCORE option of another implementation -/

theorem optionValue_parse (piv rest : Bytes) (kctx kid : Option Bytes) (hp : piv.length ≤ 5)
    (hl : (optionValue piv kctx kid).length ≤ 255) :
    ∃ o, parseOscoreValue (optionValue piv kctx kid).length (optionValue piv kctx kid ++ rest) = .ok o ∧
      o.piv.read = .ok piv ∧ o.kidCtx.read = .ok (kctx.getD []) ∧ o.kid.read = .ok (kid.getD []) ∧
      o.piv.len = piv.length ∧ o.kid.len = (kid.getD []).length := by
  by_cases hc : piv = [] ∧ kctx = none ∧ kid = none
  · obtain ⟨rfl, rfl, rfl⟩ := hc
    exact ⟨⟨.null, .null, .null⟩, by simp [parseOscoreValue, optionValue], by simp [Fld.null, Fld.read],
      by simp [Fld.null, Fld.read], by simp [Fld.null, Fld.read], rfl, rfl⟩
  · have hpr : ∀ l : Bytes, (if piv.length = 0 then Fld.null else ⟨piv.length, piv ++ l⟩ : Fld).read =
        .ok piv := by
      intro l
      by_cases h0 : piv.length = 0
      · have : piv = [] := List.length_eq_zero_iff.1 h0
        subst this; rfl
      · rw [if_neg h0]; simp [Fld.read]
    have hpl : ∀ l : Bytes, (if piv.length = 0 then Fld.null else ⟨piv.length, piv ++ l⟩ : Fld).len =
        piv.length := by
      intro l
      by_cases h0 : piv.length = 0
      · rw [if_pos h0]; exact h0.symm
      · rw [if_neg h0]
    have hflag : ∀ (a b : Nat), a = 0 ∨ a = 8 → b = 0 ∨ b = 16 → (UInt8.ofNat (piv.length + a + b)).toNat =
        piv.length + a + b := fun a b ha hb => byte_toNat (by omega)
    unfold optionValue at hl ⊢
    rw [if_neg hc] at hl ⊢
    unfold parseOscoreValue
    rw [if_neg (by simp)]
    simp only [List.cons_append, List.append_assoc, List.nil_append]
    simp only [List.length_append, List.length_cons, List.length_nil] at hl ⊢
    cases kctx with
    | none =>
      cases kid with
      | none =>
        simp only [Option.isSome_none, Bool.false_eq_true, if_false, hflag 0 0 (.inl rfl) (.inl rfl)]
        have h1 : (piv.length + 0 + 0) % 8 = piv.length := by omega
        have h2 : (piv.length + 0 + 0) / 8 % 2 = 0 := by omega
        have h3 : (piv.length + 0 + 0) / 16 % 2 = 0 := by omega
        rw [h1, h2, h3, if_neg (by omega), if_pos rfl]
        exact ⟨_, rfl, hpr _, rfl, rfl, hpl _, rfl⟩
      | some k =>
        simp only [Option.isSome_none, Option.isSome_some, Bool.false_eq_true, if_false, if_true,
          hflag 8 0 (.inr rfl) (.inl rfl), Option.getD_some, List.nil_append, List.length_nil] at hl ⊢
        have h1 : (piv.length + 8 + 0) % 8 = piv.length := by omega
        have h2 : (piv.length + 8 + 0) / 8 % 2 = 1 := by omega
        have h3 : (piv.length + 8 + 0) / 16 % 2 = 0 := by omega
        rw [h1, h2, h3, if_neg (by omega), if_pos rfl, List.drop_left]
        have hk : (if piv.length = 0 then piv.length + (0 + k.length) + 1 - 1
            else (piv.length + (0 + k.length) + 1 + 255 - piv.length) % 256) = k.length := by
          split <;> omega
        refine ⟨_, rfl, hpr _, rfl, ?_, hpl _, ?_⟩
        · simp only [Nat.one_ne_zero, if_false, Fld.read, hk]
          simp
        · simp only [Nat.one_ne_zero, if_false, hk]
    | some s =>
      simp only [List.length_cons] at hl
      have hs : (UInt8.ofNat s.length).toNat = s.length := byte_toNat (by omega)
      cases kid with
      | none =>
        simp only [Option.isSome_none, Option.isSome_some, Bool.false_eq_true, if_false, if_true,
          hflag 0 16 (.inl rfl) (.inr rfl), Option.getD_some, Option.getD_none, List.nil_append, List.length_nil] at hl ⊢
        have h1 : (piv.length + 0 + 16) % 8 = piv.length := by omega
        have h2 : (piv.length + 0 + 16) / 8 % 2 = 0 := by omega
        have h3 : (piv.length + 0 + 16) / 16 % 2 = 1 := by omega
        rw [h1, h2, h3, if_neg (by omega), if_neg (by omega), List.drop_left]
        simp only [List.cons_append, hs]
        refine ⟨_, rfl, hpr _, ?_, rfl, hpl _, rfl⟩
        simp [Fld.read]
      | some k =>
        simp only [Option.isSome_some, if_true,
          hflag 8 16 (.inr rfl) (.inr rfl), Option.getD_some] at hl ⊢
        have h1 : (piv.length + 8 + 16) % 8 = piv.length := by omega
        have h2 : (piv.length + 8 + 16) / 8 % 2 = 1 := by omega
        have h3 : (piv.length + 8 + 16) / 16 % 2 = 1 := by omega
        rw [h1, h2, h3, if_neg (by omega), if_neg (by omega), List.drop_left]
        simp only [List.cons_append, hs, List.append_assoc, List.drop_left, List.length_cons]
        have hk : ((if piv.length = 0 then piv.length + (s.length + 1 + k.length) + 1 - 1
            else (piv.length + (s.length + 1 + k.length) + 1 + 255 - piv.length) % 256) + 512 -
              (s.length + 1)) % 256 = k.length := by
          split <;> omega
        refine ⟨_, rfl, hpr _, ?_, ?_, hpl _, ?_⟩
        · simp [Fld.read]
        · simp only [Nat.one_ne_zero, if_false, Fld.read, hk]
          simp
        · simp only [Nat.one_ne_zero, if_false, hk]

/-- the ID context of the security context, if there is one -/
def kidContext (x : Bytes) : Option Bytes := if x = [] then none else some x

theorem oscoreValue_eq {piv kctx kid : Bytes} (h : piv ≠ []) :
    Spec.oscoreValue piv kctx kid = optionValue piv (kidContext kctx) (some kid) := by
  unfold Spec.oscoreValue optionValue kidContext
  simp only [h, false_and, if_false]
  by_cases hc : kctx = []
  · simp only [if_pos hc, Option.isSome_some, if_true, Option.isSome_none, Option.getD_some, Bool.false_eq_true,
      if_false]
    have : 0 + 8 + piv.length = piv.length + 8 + 0 := by omega
    rw [this]
  · simp only [if_neg hc, Option.isSome_some, if_true, Option.getD_some]
    have : 16 + 8 + piv.length = piv.length + 8 + 16 := by omega
    rw [this]

theorem ssn2piv_ne {n : Nat} {p : Bytes} (h : ssn2piv n = .ok p) : p ≠ [] := by
  have := (ssn2piv_minimal h).2.1
  intro hh; rw [hh] at this; simp at this

/-! ### what the library sends -/

theorem sent_rfc {cfg : Cfg} {C : Crypto} {nvmW : Option Err} {cap : Nat} {w w' : World} {b : Bytes} {m : Msg}
    {v : ProtVals} (hfit : m.Fits cfg) (hv : ProtOk cfg C nvmW m.pkt cap w b w' v) :
    protect C w.ctx.senderKey v.nonce v.rk v.rp v.opt m = some b := by
  have hpt : v.pt = m.plaintext := by
    rw [plaintext_pkt hfit]
    exact (inner_plain_eq hv.pt hv.lenOk hfit.innerOk).1.1
  have hct := cose_eq hv.aad hv.ct
  rw [hpt] at hct
  unfold Rfc8613.protect
  rw [hct]
  simp only [Option.map_some, Option.some.injEq]
  obtain ⟨hb, _, hbl⟩ := coapSerialize_ok.1 hv.out
  have hvl : v.opt.length < 65536 := by
    have hopt := hv.opt
    rcases C19_generate_rfc8613 v.piv v.kid v.kctx with ⟨h1, h2⟩ | ⟨_, h2⟩
    · rw [h2] at hopt
      rw [← R.ok.inj hopt]
      omega
    · rw [h2] at hopt; cases hopt
  rw [outer_wire hfit hvl, hb]

theorem not_ack {m : Msg} (h : ¬(m.type = 2 ∧ m.code = 0)) : ¬(m.pkt.type = 2 ∧ m.pkt.code = 0) := h

/-- **C67** The request `coap2oscore` writes is, byte for byte, the one RFC 8613 defines for the message, with the
sequence number as Partial IV (as few bytes as possible). -/
theorem C67_request (cfg : Cfg) (C : Crypto) (nvmW : Option Err) (m : Msg) (b : Bytes) (cap : Nat) (w w' : World)
    (hsend : coap2oscore cfg C nvmW m.wire cap w = (.ok b, w')) (hfit : m.Fits cfg) (hreq : m.isReq)
    (hack : ¬(m.type = 2 ∧ m.code = 0)) (hiv : w.ctx.commonIv.length = 13) :
    ∃ piv, Spec.IsMinimalBE piv w.ctx.ssn ∧
      request C w.ctx.senderKey w.ctx.commonIv w.ctx.senderId piv (kidContext w.ctx.idContext) m = some b := by
  obtain ⟨v, hv⟩ := protect_ok hsend (parse_wire hfit) (not_ack hack)
  have hr : isRequest m.pkt = true := by rw [isRequest_pkt]; exact decide_eq_true hreq
  have hty := msgType_request hr
  have hnew : v.new = true := by
    rw [hv.new]; unfold needsNewPiv
    simp [hty.1]
  obtain ⟨hpiv, hkid, hkctx, hnonce, _⟩ := hv.ifNew hnew
  have hread := hv.read
  unfold readWrapper at hread
  rw [if_neg (by rintro (h | h); exact hty.1 h; exact hty.2 h)] at hread
  simp only [R.ok.injEq, Prod.mk.injEq] at hread
  obtain ⟨hrp, hrk⟩ := hread
  refine ⟨v.piv, (ssn2piv_minimal hpiv).1, ?_⟩
  have hs := sent_rfc hfit hv
  have hopt := hv.opt
  rcases C19_generate_rfc8613 v.piv v.kid v.kctx with ⟨_, h2⟩ | ⟨_, h2⟩
  · rw [h2, oscoreValue_eq (ssn2piv_ne hpiv), hkctx, hkid] at hopt
    rw [← R.ok.inj hopt, ← hrp, ← hrk, hkid, nonce_eq hiv hnonce] at hs
    exact hs
  · rw [h2] at hopt; cases hopt

/-- the context remembers a request from `kid` with `piv` under the token -/
def Remembers (t : Table) (token kid piv : Bytes) : Prop := ∃ r, Outstanding t token r ∧ r.kid = kid ∧ r.piv = piv

/-- **C67** The response to a remembered request that `coap2oscore` writes is the one RFC 8613 defines: a response
without Observe of a synchronised server uses the nonce of the request – if that is the last request the context
processed (the library has one nonce for all requests: `C23_false_interleaved`). -/
theorem C67_response_partial (cfg : Cfg) (C : Crypto) (nvmW : Option Err) (m : Msg) (b : Bytes) (cap : Nat) (w w' : World)
    (kid piv : Bytes)
    (hsend : coap2oscore cfg C nvmW m.wire cap w = (.ok b, w')) (hfit : m.Fits cfg) (hrsp : ¬m.isReq)
    (hno : ¬m.observes) (hech : w.ctx.echo ≠ .verify) (hdis : Distinct w.ctx.inter)
    (hrem : Remembers w.ctx.inter m.token kid piv) (hlast : w.ctx.nonce = nonce kid piv w.ctx.commonIv) :
    responseSameNonce C w.ctx.senderKey w.ctx.commonIv kid piv none none m = some b := by
  have hr : isRequest m.pkt = false := by rw [isRequest_pkt]; exact decide_eq_false hrsp
  have hack : ¬(m.pkt.type = 2 ∧ m.pkt.code = 0) := by
    rintro ⟨_, h0⟩
    apply hrsp
    unfold Msg.isReq
    have : m.code = 0 := h0
    rw [this]; decide
  obtain ⟨v, hv⟩ := protect_ok hsend (parse_wire hfit) hack
  have hobs : isObserve m.pkt.opts = false := by
    have := observes_pkt m
    rw [isObserve_redelta, isObserve_outer] at this
    rw [this]; exact decide_eq_false hno
  have hmt : msgType m.pkt = .response := by
    have := isObserve_msgType hr
    rcases msgType_response hr with h | h
    · exact h
    · have := this.2 h
      rw [hobs] at this; cases this
  have hnew : v.new = false := by
    rw [hv.new]; unfold needsNewPiv
    rw [hmt]
    cases he : w.ctx.echo with
    | verify => exact absurd he hech
    | reboot => rfl
    | synchronized => rfl
  obtain ⟨hpiv, hkid, hkctx, hnonce, _⟩ := hv.ifReuse hnew
  obtain ⟨r, hout, rfl, rfl⟩ := hrem
  have hg := ((C29_get _ _ hv.range.token hdis).1 r).2 hout
  have hread := hv.read
  unfold readWrapper at hread
  rw [hmt, if_pos (.inl rfl), hg] at hread
  simp only [R.ok_bind, R.pure_eq, R.ok.injEq, Prod.mk.injEq] at hread
  obtain ⟨hrp, hrk⟩ := hread
  have hs := sent_rfc hfit hv
  have hopt := hv.opt
  rw [hpiv, hkid, hkctx] at hopt
  have he : oscoreOptionGenerate [] [] [] = .ok [] := rfl
  rw [he] at hopt
  rw [← R.ok.inj hopt, ← hrp, ← hrk, hnonce, hlast] at hs
  exact hs

/-- **C67** A notification, or a challenge of a server that has lost its replay window, has a Partial IV of its own. -/
theorem C67_notification (cfg : Cfg) (C : Crypto) (nvmW : Option Err) (m : Msg) (b : Bytes) (cap : Nat) (w w' : World)
    (kid piv : Bytes)
    (hsend : coap2oscore cfg C nvmW m.wire cap w = (.ok b, w')) (hfit : m.Fits cfg) (hrsp : ¬m.isReq)
    (hnew : m.observes ∨ w.ctx.echo = .verify) (hdis : Distinct w.ctx.inter)
    (hrem : Remembers w.ctx.inter m.token kid piv) (hiv : w.ctx.commonIv.length = 13) :
    ∃ own, Spec.IsMinimalBE own w.ctx.ssn ∧
      responseNewPiv C w.ctx.senderKey w.ctx.commonIv w.ctx.senderId own kid piv (kidContext w.ctx.idContext)
        (some w.ctx.senderId) m = some b := by
  have hr : isRequest m.pkt = false := by rw [isRequest_pkt]; exact decide_eq_false hrsp
  have hack : ¬(m.pkt.type = 2 ∧ m.pkt.code = 0) := by
    rintro ⟨_, h0⟩
    apply hrsp
    unfold Msg.isReq
    have : m.code = 0 := h0
    rw [this]; decide
  obtain ⟨v, hv⟩ := protect_ok hsend (parse_wire hfit) hack
  have hobs : isObserve m.pkt.opts = decide m.observes := by
    have := observes_pkt m
    rwa [isObserve_redelta, isObserve_outer] at this
  have hty := msgType_response hr
  have hnewv : v.new = true := by
    rw [hv.new]; unfold needsNewPiv
    rcases hnew with h | h
    · have hm := isObserve_msgType hr
      rw [hm.1 (by rw [hobs]; exact decide_eq_true h)]; rfl
    · rw [h]; simp
  obtain ⟨hpiv, hkid, hkctx, hnonce, _⟩ := hv.ifNew hnewv
  obtain ⟨r, hout, rfl, rfl⟩ := hrem
  have hg := ((C29_get _ _ hv.range.token hdis).1 r).2 hout
  have hread := hv.read
  unfold readWrapper at hread
  rw [if_pos hty, hg] at hread
  simp only [R.ok_bind, R.pure_eq, R.ok.injEq, Prod.mk.injEq] at hread
  obtain ⟨hrp, hrk⟩ := hread
  refine ⟨v.piv, (ssn2piv_minimal hpiv).1, ?_⟩
  have hs := sent_rfc hfit hv
  have hopt := hv.opt
  rcases C19_generate_rfc8613 v.piv v.kid v.kctx with ⟨_, h2⟩ | ⟨_, h2⟩
  · rw [h2, oscoreValue_eq (ssn2piv_ne hpiv), hkctx, hkid] at hopt
    rw [← R.ok.inj hopt, ← hrp, ← hrk, nonce_eq hiv hnonce] at hs
    exact hs
  · rw [h2] at hopt; cases hopt

/-! ### what the library accepts -/

/-- space the Uri-Path options need: the segments with one separator each -/
def uriRoom (m : Msg) : Nat := ((m.opts.filter (fun o => decide (o.1 = 11))).map (fun o => o.2.length + 1)).sum

theorem uriRoom_pkt (m : Msg) : Spec.uriPathRoom m.pkt.opts = uriRoom m := by
  unfold uriRoom Spec.uriPathRoom
  rw [← pkt_opts m, List.filter_map, List.map_map]
  rfl

theorem uri_pkt {cfg : Cfg} {m : Msg} (h : uriRoom m < cfg.uriMax) :
    uriPathCreate m.pkt.opts cfg.uriMax = .ok (Spec.uriPath m.pkt.opts) :=
  (C33_uri_path_partial m.pkt.opts cfg.uriMax (by omega)).1 (by rw [uriRoom_pkt]; exact h)

theorem uri_pkt_len {cfg : Cfg} {m : Msg} (h : uriRoom m < cfg.uriMax) :
    (Spec.uriPath m.pkt.opts).length ≤ cfg.uriMax := by
  have hl := slashed_length m.pkt.opts
  rw [uriRoom_pkt] at hl
  unfold Spec.uriPath
  cases hs : (m.pkt.opts.filter (fun o => decide (o.num = 11))).map Opt.value with
  | nil => simp; omega
  | cons a l =>
    rw [hs] at hl
    simp only
    have := slashed_dropLast (a :: l) (by simp)
    rw [← this, List.length_dropLast]
    omega

/-- how an OSCORE message with the option value `(piv, kctx, kid)` looks to the library -/
theorem received_parse {cfg : Cfg} {m : Msg} (h : m.Fits cfg) {piv ct : Bytes} {kctx kid : Option Bytes}
    (hp : piv.length ≤ 5) (hl : (optionValue piv kctx kid).length ≤ 255)
    (hsmall : (m.outerMsg (optionValue piv kctx kid) ct).wire.length < 65536) :
    ∃ t o, coapParse (m.outerMsg (optionValue piv kctx kid) ct).wire =
        .ok (oscorePkgGenerate m.pkt (redelta 0 (outerOpts m.pkt.opts)) ct (optionValue piv kctx kid), t) ∧
      oscoreOptionParser t = .ok o ∧
      o.piv.read = .ok piv ∧ o.kidCtx.read = .ok (kctx.getD []) ∧ o.kid.read = .ok (kid.getD []) ∧
      o.piv.len = piv.length ∧ o.kid.len = (kid.getD []).length := by
  have hw := outer_wire h (v := optionValue piv kctx kid) (ct := ct) (by omega)
  rw [hw] at hsmall ⊢
  generalize hv : optionValue piv kctx kid = v at *
  have hu : ∀ o ∈ redelta 0 (outerOpts m.pkt.opts), o.num ≤ 39 := redelta_outer_le
  have hopts := oscorePkg_opts (p := m.pkt) (ct := ct) (v := v) hu
  have hlen : ∀ o ∈ redelta 0 (outerOpts m.pkt.opts), o.len < 256 := by
    intro o ho
    have := redelta_len (n := 250) (l := outerOpts m.pkt.opts) (prev := 0) (fun x hx => by
      rw [outerOpts_eq] at hx
      have := h.pktLen x (List.mem_filter.1 hx).1
      omega) o ho
    unfold Opt.len; omega
  have hrange : PktRange m.pkt := by
    have hw := h.small
    have := coapDeserialize_wf (parse_wire h)
    exact this
  have hok := oscorePkg_ok (ct := ct) (v := v) hrange hu
    (by rw [redelta_length]; exact h.innerOk.outer) hlen (by omega)
  have hpar := parse_encPkt hok hsmall
  rw [hopts] at hpar
  obtain ⟨rest, hrest⟩ := outer_option_parse
    (tail := payloadTail (oscorePkgGenerate m.pkt (redelta 0 (outerOpts m.pkt.opts)) ct v))
    (v := v) (redelta_outer_noOscore h.innerOk.noOscore)
  obtain ⟨o, ho, h1, h2, h3, h4, h5⟩ := optionValue_parse piv rest kctx kid hp (by rw [hv]; exact hl)
  rw [hv] at ho
  exact ⟨_, o, hpar, by rw [hrest]; exact ho, h1, h2, h3, h4, h5⟩

/-- and the packet rebuilt from the plaintext -/
theorem received_rebuilt {cfg : Cfg} {m : Msg} (h : m.Fits cfg) (ct v : Bytes) :
    oCoapPkgGenerate m.plaintext (oscorePkgGenerate m.pkt (redelta 0 (outerOpts m.pkt.opts)) ct v) =
      .ok { m.pkt with opts := m.pkt.opts.map (recovered (isRequest m.pkt)) } := by
  have hi := h.innerOk
  unfold oCoapPkgGenerate
  have hpl := h.plain
  have hbuf := h.bufs
  rw [plaintext_pkt h] at hpl ⊢
  rw [inner_parse (numsOk_of_sorted h.sortedFrom) hi ?_ ?_]
  · simp only [R.ok_bind]
    rw [oscorePkg_opts redelta_outer_le, split_merge_list _ _ _ hi.sorted hi.noOscore hi.publicOnce hi.total]
    rfl
  · intro o ho
    have := redelta_len (n := 250) (innerOpts_len (fun x hx => by have := h.pktLen x hx; omega)) o ho
    unfold Opt.len; omega
  · simp only [List.length_cons] at hpl
    omega

theorem aad_lib {kid piv : Bytes} (h : kid.length + piv.length ≤ 7) :
    ∃ a, createAad kid piv = .ok a ∧ encStructure a = .ok (aad kid piv) := by
  obtain ⟨a, hA⟩ := (C26_aad_iff (kid := kid) (piv := piv) (by omega) (by omega)).2 (by omega)
  obtain ⟨x, hx, henc⟩ := R.bind_eq_ok.1 hA
  have := (C25_aad_rfc8613 hx henc).2
  rw [this] at henc
  exact ⟨x, hx, henc⟩

theorem decrypt_lib {C : Crypto} (hC : C.Lawful) {key n pt ct kid piv a : Bytes}
    (henc : C.aeadEnc key n (aad kid piv) 8 pt = some ct) (ha : encStructure a = .ok (aad kid piv)) :
    coseDecrypt C ct n a key = .ok pt ∧ ct.length = pt.length + 8 := by
  refine ⟨?_, hC.enc_len _ _ _ _ _ _ henc⟩
  unfold coseDecrypt
  rw [ha]
  simp only [R.ok_bind]
  have := hC.dec_enc _ _ _ _ _ _ henc
  unfold tagLen
  rw [this]
  rfl

theorem protect_some {C : Crypto} {key n kid piv v b : Bytes} {m : Msg}
    (h : Rfc8613.protect C key n kid piv v m = some b) :
    ∃ ct, C.aeadEnc key n (aad kid piv) 8 m.plaintext = some ct ∧ b = (m.outerMsg v ct).wire := by
  unfold Rfc8613.protect at h
  cases hx : C.aeadEnc key n (aad kid piv) 8 m.plaintext with
  | none => rw [hx] at h; cases h
  | some ct =>
    rw [hx] at h
    exact ⟨ct, rfl, (Option.some.inj h).symm⟩

theorem size_lib {cfg : Cfg} {m : Msg} (h : m.Fits cfg) {ct v : Bytes} (hct : ct.length = m.plaintext.length + 8) :
    checkBufferSize cfg.maxPlaintext (sub32
      (oscorePkgGenerate m.pkt (redelta 0 (outerOpts m.pkt.opts)) ct v).payload.length 8) = .ok () := by
  have : (oscorePkgGenerate m.pkt (redelta 0 (outerOpts m.pkt.opts)) ct v).payload = ct := rfl
  have hbuf := h.bufs
  have hpl := h.plain
  rw [this, hct, sub32_of_le (by omega) (by omega), checkBufferSize_ok]
  omega

/-- **C67** A request that any implementation of RFC 8613 has made for this server – any Partial IV of 1 to 5 bytes,
not only the shortest, with or without kid context – is delivered as the message it protects, if it is not a replay
and there is room for it; and the server remembers kid and Partial IV for the response. -/
theorem C67_receive_request_partial (cfg : Cfg) (C : Crypto) (hC : C.Lawful) (m : Msg) (b piv : Bytes) (kctx : Option Bytes)
    (cap : Nat) (srv : Ctx)
    (hrq : request C srv.recipientKey srv.commonIv srv.recipientId piv kctx m = some b)
    (hfit : m.Fits cfg) (hreq : m.isReq) (huri : uriRoom m < cfg.uriMax) (hb : b.length < 65536)
    (hp : 1 ≤ piv.length ∧ piv.length ≤ 5) (hid : srv.recipientId.length + piv.length ≤ 7)
    (hv : (optionValue piv kctx (some srv.recipientId)).length ≤ 255) (hiv : srv.commonIv.length = 13)
    (hssn : srv.ssn < 0x7FFFFF) (hsync : srv.echo = .synchronized) (hfresh : srv.window.valid (beVal piv) = true)
    (hdis : Distinct srv.inter) (hroom : HasRoom srv.inter m.token) (hcap : m.wire.length ≤ cap) :
    ∃ srv', oscore2coap cfg C b cap srv = (.ok m.wire, srv') ∧
      Remembers srv'.inter m.token srv.recipientId piv ∧ srv'.nonce = nonce srv.recipientId piv srv.commonIv ∧
      Distinct srv'.inter ∧ ∃ win, srv' = { srv with nonce := srv'.nonce, inter := srv'.inter, window := win } := by
  obtain ⟨ct, henc, rfl⟩ := protect_some hrq
  obtain ⟨t, o, hparse, hopt, hpiv, _, hkid, hpl, hkl⟩ := received_parse hfit (ct := ct) hp.2 hv hb
  generalize hval : optionValue piv kctx (some srv.recipientId) = v at *
  simp only [Option.getD_some] at hkid hkl
  have hr : isRequest m.pkt = true := by rw [isRequest_pkt]; exact decide_eq_true hreq
  obtain ⟨hOreq, hOty⟩ := outer_msgType_request (ct := ct) (v := v) hr
  have hty := msgType_request hr
  have hnr : ¬(msgType m.pkt = .response ∨ msgType m.pkt = .notification) := by
    rintro (h | h)
    · exact hty.1 h
    · exact hty.2 h
  obtain ⟨a, haad, hencs⟩ := aad_lib (kid := srv.recipientId) (piv := piv) hid
  obtain ⟨hdec, hctl⟩ := decrypt_lib hC henc hencs
  have hreb := received_rebuilt hfit ct v
  rw [hr, recovered_true] at hreb
  have huriE := uri_pkt huri
  have hset : ∃ t2, updateWrapper cfg srv.inter (msgType m.pkt) m.token (Spec.uriPath m.pkt.opts) piv srv.recipientId =
      .ok t2 := by
    unfold updateWrapper
    simp only
    generalize hk : (if msgType m.pkt = .cancellation then MsgType.registration else msgType m.pkt) = k
    have hk2 : k = .request ∨ k = .registration := by
      subst hk
      cases h : msgType m.pkt <;> simp_all
    rw [if_pos hk2, memcpyS_ok.2 ⟨rfl, hp.2⟩, R.ok_bind, memcpyS_ok.2 ⟨rfl, by omega⟩, R.ok_bind,
      memcpyS_ok.2 ⟨rfl, hfit.token⟩, R.ok_bind, memcpyS_ok.2 ⟨rfl, uri_pkt_len huri⟩, R.ok_bind]
    refine tableSet_room ?_ hroom
    have h1 := hfit.token
    have h2 := uri_pkt_len huri
    simp only [List.length_take]
    omega
  obtain ⟨t2, ht2⟩ := hset
  obtain ⟨hd2, _⟩ := updateWrapper_distinct hdis ht2
  have hrem := updateWrapper_outstanding hdis ht2 hty
  have hdw : decryptWrapper cfg C (some o)
      (oscorePkgGenerate m.pkt (redelta 0 (outerOpts m.pkt.opts)) ct v) srv =
      (.ok (m.pkt, m.plaintext), { srv with nonce := nonce srv.recipientId piv srv.commonIv, inter := t2 }) := by
    refine decryptWrapper_ok (rp := piv) (rk := srv.recipientId) (aad := a) (uri := Spec.uriPath m.pkt.opts)
      ?_ ?_ haad hdec hreb huriE ht2
    · unfold readWrapper
      rw [hOty, if_neg hnr]
      simp only [decPivKid, OscOpt.read]
      rw [hpiv, hkid]; rfl
    · simp only [decNonce, OscOpt.read]
      rw [hpiv, hkid]
      simp only [R.ok_bind, R.pure_eq]
      exact nonce_def (by omega) hp.2 hiv
  have hpivne : ∃ x l, piv = x :: l := by
    cases hvp : piv with
    | nil => rw [hvp] at hp; simp at hp
    | cons x l => exact ⟨x, l, rfl⟩
  obtain ⟨x, l, hxl⟩ := hpivne
  have hafter : afterRequest o m.plaintext { srv with nonce := nonce srv.recipientId piv srv.commonIv, inter := t2 } =
      (.ok (), { srv with nonce := nonce srv.recipientId piv srv.commonIv, inter := t2, window := (srv.window.update x.toNat).2 }) := by
    unfold afterRequest
    rw [M.bind_get]
    simp only [hsync]
    rw [hpiv, M.bind_lift_ok]
    rw [hxl]
    rfl
  have hser : coapSerialize cfg m.pkt cap = .ok m.wire := by
    rw [wire_pkt hfit] at hcap ⊢
    exact coapSerialize_ok.2 ⟨rfl, hcap, hfit.optBytes⟩
  refine ⟨{ srv with nonce := nonce srv.recipientId piv srv.commonIv, inter := t2, window := (srv.window.update x.toNat).2 }, ?_, ?_, rfl, hd2, _, rfl⟩
  · unfold oscore2coap
    rw [M.bind_get]
    have hfr : checkFreshness srv = .ok () := by
      unfold checkFreshness ssnOverflow; rw [if_neg (by omega)]
    rw [hfr, M.bind_lift_ok, hparse, M.bind_lift_ok]
    simp only
    rw [hopt, M.bind_lift_ok, size_lib hfit hctl, M.bind_lift_ok, hOreq]
    simp only [if_true]
    rw [M.run_bind]
    have hun : unprotectRequest cfg C o (oscorePkgGenerate m.pkt (redelta 0 (outerOpts m.pkt.opts)) ct v) srv =
        (.ok m.pkt, { srv with nonce := nonce srv.recipientId piv srv.commonIv, inter := t2, window := (srv.window.update x.toNat).2 }) := by
      unfold unprotectRequest
      rw [M.bind_get]
      have hk : kidMatches srv o = .ok true := by
        unfold kidMatches
        rw [hkl, if_neg (by simp), hkid]
        simp only [R.ok_bind, R.pure_eq, R.ok.injEq]
        exact arrayEquals_iff.2 rfl
      rw [hk, M.bind_lift_ok]
      rw [if_neg (by simp)]
      have hc : checkReplay srv o = .ok () := by
        unfold checkReplay
        rw [if_pos hsync, hpiv]
        simp only [R.ok_bind]
        rw [if_pos hfresh]
      rw [hc, M.bind_lift_ok, M.bind_ok hdw]
      simp only
      rw [M.bind_ok hafter]
      rfl
    rw [hun]
    simp only [M.run_lift]
    rw [hser]
  · obtain ⟨r, h1, h2, h3⟩ := hrem
    exact ⟨r, h1, h3, h2⟩

/-- the response as the client gets it: the value of Observe, which is not protected (4.1.3.5.2), is empty -/
def delivered (m : Msg) : Msg := { m with opts := m.opts.map fun o => if o.1 = 6 then (6, []) else o }

theorem delivered_id {m : Msg} (h : ¬m.observes) : delivered m = m := by
  unfold delivered
  have : (m.opts.map fun o => if o.1 = 6 then (6, []) else o) = m.opts := by
    rw [List.map_congr_left (g := id)]
    · exact List.map_id _
    · intro o ho
      rw [if_neg (fun h6 => h ⟨o, ho, h6⟩)]; rfl
  rw [this]

theorem redelta_recovered (prev : Nat) (l : List Opt) :
    redelta prev (l.map (recovered false)) = (redelta prev l).map (recovered false) := by
  induction l generalizing prev with
  | nil => rfl
  | cons o l ih =>
    simp only [List.map_cons, redelta, recovered_num, ih]
    congr 1
    unfold recovered
    split <;> rfl

theorem delivered_pkt (m : Msg) : (delivered m).pkt = receivedResponse m.pkt := by
  unfold delivered receivedResponse Msg.pkt
  simp only
  rw [← redelta_recovered]
  congr 2
  rw [List.map_map, List.map_map]
  apply List.map_congr_left
  intro o _
  simp only [Function.comp, recovered]
  split <;> rename_i h <;> simp [h]

theorem delivered_wire {cfg : Cfg} {m : Msg} (h : m.Fits cfg) :
    (delivered m).wire = encPkt (receivedResponse m.pkt) := by
  have e : m.pkt.opts.length = m.opts.length := by
    have := congrArg List.length (pkt_opts m)
    rwa [List.length_map] at this
  have hw : Spec.WellFormed (receivedResponse m.pkt) := by
    refine ⟨h.ver, h.type, h.mid, h.token, ?_, sortedFrom_recovered false h.sortedFrom, ?_⟩
    · have := h.count
      unfold receivedResponse
      simp only [List.length_map]
      omega
    · intro o ho
      obtain ⟨x, hx, rfl⟩ := List.mem_map.1 ho
      have := h.pktLen x hx
      unfold recovered
      split
      · simp
      · omega
  rw [← wire_eq hw, ← delivered_pkt]
  unfold Msg.wire
  have : ((delivered m).pkt.opts.map fun o => (o.num, o.value)) = (delivered m).opts := pkt_opts _
  rw [this]
  rfl

theorem response_delivered {cfg : Cfg} {C : Crypto} (hC : C.Lawful) {m : Msg} {b own kid piv n : Bytes}
    {kctx kid' : Option Bytes} {cap : Nat} {cl : Ctx}
    (hrs : Rfc8613.protect C cl.recipientKey n kid piv (optionValue own kctx kid') m = some b)
    (hn : (own = [] ∧ ¬m.observes ∧ cl.nonce = n) ∨
      (own ≠ [] ∧ n = nonce (kid'.getD []) own cl.commonIv ∧ (kid'.getD []).length ≤ 7))
    (hfit : m.Fits cfg) (hrsp : ¬m.isReq) (huri : uriRoom m < cfg.uriMax) (hb : b.length < 65536)
    (hp : own.length ≤ 5) (hid : kid.length + piv.length ≤ 7)
    (hv : (optionValue own kctx kid').length ≤ 255) (hiv : cl.commonIv.length = 13)
    (hssn : cl.ssn < 0x7FFFFF) (hdis : Distinct cl.inter) (hrem : Remembers cl.inter m.token kid piv)
    (hnotif : m.observes → cl.notifInit = true → cl.notifNum < beVal own)
    (hcap : (delivered m).wire.length ≤ cap) :
    ∃ cl', oscore2coap cfg C b cap cl = (.ok (delivered m).wire, cl') := by
  obtain ⟨ct, henc, rfl⟩ := protect_some hrs
  obtain ⟨t, o, hparse, hopt, hpiv, _, hkid, hpl, hkl⟩ := received_parse hfit (ct := ct) hp hv hb
  generalize hval : optionValue own kctx kid' = v at *
  have hr : isRequest m.pkt = false := by rw [isRequest_pkt]; exact decide_eq_false hrsp
  obtain ⟨hOrsp, hOty⟩ := outer_msgType_response (ct := ct) (v := v) hr
  have hty := msgType_response hr
  have hobs : isObserve m.pkt.opts = decide m.observes := by
    have := observes_pkt m
    rwa [isObserve_redelta, isObserve_outer] at this
  obtain ⟨a, haad, hencs⟩ := aad_lib (kid := kid) (piv := piv) hid
  obtain ⟨hdec, hctl⟩ := decrypt_lib hC henc hencs
  have hreb := received_rebuilt hfit ct v
  rw [hr] at hreb
  obtain ⟨r, hout, rfl, rfl⟩ := hrem
  have hg := ((C29_get _ _ hfit.token hdis).1 r).2 hout
  have hmsg : msgType (receivedResponse m.pkt) = msgType m.pkt := by
    have h1 : isRequest (receivedResponse m.pkt) = false := hr
    have h2 : isObserve (receivedResponse m.pkt).opts = isObserve m.pkt.opts := getObserve_recovered_isSome _ _
    rcases msgType_response h1 with h | h
    · rcases hty with h' | h'
      · rw [h, h']
      · have := (isObserve_msgType hr).2 h'
        rw [← h2] at this
        exact absurd ((isObserve_msgType h1).1 this) (by rw [h]; simp)
    · have := (isObserve_msgType h1).2 h
      rw [h2] at this
      rw [h, (isObserve_msgType hr).1 this]
  have hupd : ∃ t2, updateWrapper cfg cl.inter (msgType (receivedResponse m.pkt)) m.token
      (Spec.uriPath m.pkt.opts) r.piv r.kid = .ok t2 := by
    rw [hmsg]
    rcases hty with h | h
    · obtain ⟨t2, h2, _⟩ := (C29_remove cl.inter m.token hfit.token hdis).2 ⟨r, hout⟩
      refine ⟨t2, ?_⟩
      rw [h]; unfold updateWrapper
      simp only [reduceCtorEq, if_false, or_self, if_true]
      exact h2
    · refine ⟨cl.inter, ?_⟩
      rw [h]; unfold updateWrapper
      simp only [reduceCtorEq, if_false, or_self]
  obtain ⟨t2, ht2⟩ := hupd
  have hoptE : ∀ opt, opt = (if o.piv.len ≠ 0 then some o else none) →
      decryptWrapper cfg C opt (oscorePkgGenerate m.pkt (redelta 0 (outerOpts m.pkt.opts)) ct v) cl =
      (.ok (receivedResponse m.pkt, m.plaintext), { cl with nonce := n, inter := t2 }) := by
    rintro opt rfl
    refine decryptWrapper_ok (rp := r.piv) (rk := r.kid) (aad := a) (uri := Spec.uriPath m.pkt.opts)
      ?_ ?_ haad hdec hreb ?_ ht2
    · unfold readWrapper
      rw [hOty, if_pos hty]
      have : (oscorePkgGenerate m.pkt (redelta 0 (outerOpts m.pkt.opts)) ct v).token = m.token := rfl
      rw [this, hg]; rfl
    · rcases hn with ⟨h1, _, h3⟩ | ⟨h1, h2, h3⟩
      · rw [if_neg (by rw [hpl, h1]; simp)]
        simp only [decNonce]
        rw [h3]
      · have : own.length ≠ 0 := fun h => h1 (List.length_eq_zero_iff.1 h)
        rw [if_pos (by rw [hpl]; omega)]
        simp only [decNonce, OscOpt.read]
        rw [hpiv, hkid]
        simp only [R.ok_bind, R.pure_eq]
        rw [h2]
        exact nonce_def h3 hp hiv
    · have : (receivedResponse m.pkt).opts = m.pkt.opts.map (recovered false) := rfl
      rw [this, uriPathCreate_recovered]; exact uri_pkt huri
  have hser : coapSerialize cfg (receivedResponse m.pkt) cap = .ok (delivered m).wire := by
    rw [delivered_wire hfit] at hcap ⊢
    refine coapSerialize_ok.2 ⟨rfl, hcap, ?_⟩
    have := optBytesLen_recovered false m.pkt.opts
    have h2 := hfit.optBytes
    unfold receivedResponse
    simp only
    omega
  by_cases hob : m.observes
  · have hobO : isObserve (oscorePkgGenerate m.pkt (redelta 0 (outerOpts m.pkt.opts)) ct v).opts = true := by
      rw [isObserve_msgType hOrsp, hOty]
      exact (isObserve_msgType hr).1 (by rw [hobs]; exact decide_eq_true hob)
    have hne : own ≠ [] := by
      rcases hn with ⟨_, h2, _⟩ | ⟨h1, _⟩
      · exact absurd hob h2
      · exact h1
    have hpln : o.piv.len ≠ 0 := by
      rw [hpl]; intro h; exact hne (List.length_eq_zero_iff.1 h)
    have hps : piv2ssn own = .ok (beVal own) := by
      unfold piv2ssn; rw [if_neg (by omega)]
    refine ⟨_, oscore2coap_response (o := o) (c' := { cl with nonce := n, inter := t2, notifNum := beVal own, notifInit := true })
      hssn hparse hopt (size_lib hfit hctl) hOrsp ?_ hser⟩
    unfold unprotectResponse
    rw [M.bind_get, hobO]
    simp only [if_true]
    rw [if_pos hpln, hpiv, M.bind_lift_ok]
    have hchk : checkNotification cl own = .ok () := by
      unfold checkNotification
      rw [hps]
      simp only [R.ok_bind]
      rw [if_neg]
      rintro ⟨h1, h2⟩
      have := hnotif hob h1
      omega
    rw [hchk, M.bind_lift_ok, M.bind_ok (hoptE (some o) (by rw [if_pos hpln]))]
    simp only
    have hnu : notificationUpdate own { cl with nonce := n, inter := t2 } =
        (.ok (), { cl with nonce := n, inter := t2, notifNum := beVal own, notifInit := true }) := by
      unfold notificationUpdate
      rw [hps, M.bind_lift_ok]; rfl
    rw [M.bind_ok hnu]
    rfl
  · have hobO : isObserve (oscorePkgGenerate m.pkt (redelta 0 (outerOpts m.pkt.opts)) ct v).opts = false := by
      cases hx : isObserve (oscorePkgGenerate m.pkt (redelta 0 (outerOpts m.pkt.opts)) ct v).opts with
      | false => rfl
      | true =>
        have := (isObserve_msgType hOrsp).1 hx
        rw [hOty] at this
        have := (isObserve_msgType hr).2 this
        rw [hobs, decide_eq_true_eq] at this
        exact absurd this hob
    refine ⟨_, oscore2coap_response (o := o) (c' := { cl with nonce := n, inter := t2 })
      hssn hparse hopt (size_lib hfit hctl) hOrsp ?_ hser⟩
    unfold unprotectResponse
    rw [M.bind_get, hobO]
    simp only [Bool.false_eq_true, if_false]
    rw [M.bind_ok (hoptE _ rfl)]
    rfl

/-- **C67** A response without Partial IV that another implementation has made for a remembered request is delivered,
if it is the last request the context processed (`C23_false_interleaved`) and the response has no Observe option
(`C67_false_first_notification`). -/
theorem C67_receive_response_partial (cfg : Cfg) (C : Crypto) (hC : C.Lawful) (m : Msg) (b kid piv : Bytes)
    (kctx kid' : Option Bytes) (cap : Nat) (cl : Ctx)
    (hrs : responseSameNonce C cl.recipientKey cl.commonIv kid piv kctx kid' m = some b)
    (hlast : cl.nonce = nonce kid piv cl.commonIv) (hobs : ¬m.observes)
    (hfit : m.Fits cfg) (hrsp : ¬m.isReq) (huri : uriRoom m < cfg.uriMax) (hb : b.length < 65536)
    (hid : kid.length + piv.length ≤ 7)
    (hv : (optionValue [] kctx kid').length ≤ 255) (hiv : cl.commonIv.length = 13)
    (hssn : cl.ssn < 0x7FFFFF) (hdis : Distinct cl.inter) (hrem : Remembers cl.inter m.token kid piv)
    (hcap : m.wire.length ≤ cap) :
    ∃ cl', oscore2coap cfg C b cap cl = (.ok m.wire, cl') := by
  have := response_delivered (own := []) hC hrs (.inl ⟨rfl, hobs, hlast⟩) hfit hrsp huri hb (by simp) hid hv hiv hssn hdis hrem
    (fun h => absurd h hobs) (by rw [delivered_id hobs]; exact hcap)
  rwa [delivered_id hobs] at this

/-- **C67** A response or notification with a Partial IV of its own is delivered if the option repeats the kid of the
server (or that ID is empty), which RFC 8613 does not require (`C67_false_no_kid`). -/
theorem C67_receive_notification_partial (cfg : Cfg) (C : Crypto) (hC : C.Lawful) (m : Msg) (b own kid piv : Bytes)
    (kctx kid' : Option Bytes) (cap : Nat) (cl : Ctx)
    (hrs : responseNewPiv C cl.recipientKey cl.commonIv cl.recipientId own kid piv kctx kid' m = some b)
    (hkid : kid' = some cl.recipientId ∨ kid' = none ∧ cl.recipientId = [])
    (hnew : m.observes → cl.notifInit = true → cl.notifNum < beVal own)
    (hfit : m.Fits cfg) (hrsp : ¬m.isReq) (huri : uriRoom m < cfg.uriMax) (hb : b.length < 65536)
    (hp : 1 ≤ own.length ∧ own.length ≤ 5) (hrid : cl.recipientId.length ≤ 7) (hid : kid.length + piv.length ≤ 7)
    (hv : (optionValue own kctx kid').length ≤ 255) (hiv : cl.commonIv.length = 13)
    (hssn : cl.ssn < 0x7FFFFF) (hdis : Distinct cl.inter) (hrem : Remembers cl.inter m.token kid piv)
    (hcap : (delivered m).wire.length ≤ cap) :
    ∃ cl', oscore2coap cfg C b cap cl = (.ok (delivered m).wire, cl') := by
  have e : kid'.getD [] = cl.recipientId := by
    rcases hkid with h | ⟨h, h2⟩
    · rw [h]; rfl
    · rw [h, h2]; rfl
  refine response_delivered (own := own) hC hrs (.inr ⟨?_, ?_, ?_⟩) hfit hrsp huri hb hp.2 hid hv hiv hssn hdis hrem hnew hcap
  · intro h; rw [h] at hp; simp at hp
  · rw [e]
  · rw [e]; exact hrid

/-! ### whole exchanges with another implementation -/

/-- **C67** (the library as server) A request of another implementation is delivered, and the response the application
gives is sent as the RFC 8613 response to that request. -/
theorem C67_serve_partial (cfg : Cfg) (C : Crypto) (hC : C.Lawful) (m a : Msg) (b rb piv : Bytes) (kctx : Option Bytes)
    (cap capR : Nat) (nvmW : Option Err) (srv srv' : Ctx) (nvm : Nat) (log : List EncCall) (w' : World)
    (hrq : request C srv.recipientKey srv.commonIv srv.recipientId piv kctx m = some b)
    (hfit : m.Fits cfg) (hreq : m.isReq) (huri : uriRoom m < cfg.uriMax) (hb : b.length < 65536)
    (hp : 1 ≤ piv.length ∧ piv.length ≤ 5) (hid : srv.recipientId.length + piv.length ≤ 7)
    (hv : (optionValue piv kctx (some srv.recipientId)).length ≤ 255) (hiv : srv.commonIv.length = 13)
    (hssn : srv.ssn < 0x7FFFFF) (hsync : srv.echo = .synchronized) (hfresh : srv.window.valid (beVal piv) = true)
    (hdis : Distinct srv.inter) (hroom : HasRoom srv.inter m.token) (hcap : m.wire.length ≤ cap)
    (hrecv : (oscore2coap cfg C b cap srv).2 = srv')
    (hafit : a.Fits cfg) (hrsp : ¬a.isReq) (htok : a.token = m.token) (hobs : ¬a.observes)
    (hsend : coap2oscore cfg C nvmW a.wire capR ⟨srv', nvm, log⟩ = (.ok rb, w')) :
    (oscore2coap cfg C b cap srv).1 = .ok m.wire ∧
    responseSameNonce C srv.senderKey srv.commonIv srv.recipientId piv none none a = some rb := by
  obtain ⟨s, h1, h2, h3, h4, win, h5⟩ := C67_receive_request_partial cfg C hC m b piv kctx cap srv hrq hfit hreq huri hb hp hid hv
    hiv hssn hsync hfresh hdis hroom hcap
  rw [h1] at hrecv
  simp only at hrecv
  subst hrecv
  refine ⟨by rw [h1], ?_⟩
  have hk : s.senderKey = srv.senderKey := by rw [h5]
  have hi : s.commonIv = srv.commonIv := by rw [h5]
  have he : s.echo = srv.echo := by rw [h5]
  have := C67_response_partial cfg C nvmW a rb capR ⟨s, nvm, log⟩ w' srv.recipientId piv hsend hafit hrsp hobs
    (by show s.echo ≠ _; rw [he, hsync]; simp) h4 (by rw [htok]; exact h2)
    (by show s.nonce = _; rw [h3, hi])
  rw [show (⟨s, nvm, log⟩ : World).ctx.senderKey = srv.senderKey from hk,
    show (⟨s, nvm, log⟩ : World).ctx.commonIv = srv.commonIv from hi] at this
  exact this

/-- **C67** (the library as client) After `coap2oscore` has written a request – the RFC 8613 request with the Partial IV
`piv` – the response another implementation makes for it, with the nonce of the request, is delivered. -/
theorem C67_ask_partial (cfg : Cfg) (C : Crypto) (hC : C.Lawful) (m a : Msg) (b : Bytes) (cap capR : Nat)
    (nvmW : Option Err) (w w' : World)
    (hsend : coap2oscore cfg C nvmW m.wire cap w = (.ok b, w')) (hfit : m.Fits cfg) (hreq : m.isReq)
    (hack : ¬(m.type = 2 ∧ m.code = 0)) (hiv : w.ctx.commonIv.length = 13) (hdis : Distinct w.ctx.inter)
    (hssn : w.ctx.ssn + 1 < 0x7FFFFF)
    (hafit : a.Fits cfg) (hrsp : ¬a.isReq) (htok : a.token = m.token) (hobs : ¬a.observes)
    (huri : uriRoom a < cfg.uriMax) (hcap : a.wire.length ≤ capR) :
    ∃ piv, Spec.IsMinimalBE piv w.ctx.ssn ∧
      request C w.ctx.senderKey w.ctx.commonIv w.ctx.senderId piv (kidContext w.ctx.idContext) m = some b ∧
      ∀ kctx kid' rb, responseSameNonce C w.ctx.recipientKey w.ctx.commonIv w.ctx.senderId piv kctx kid' a = some rb →
        rb.length < 65536 → (optionValue [] kctx kid').length ≤ 255 →
        ∃ cl', oscore2coap cfg C rb capR w'.ctx = (.ok a.wire, cl') := by
  obtain ⟨piv, hmin, hrq⟩ := C67_request cfg C nvmW m b cap w w' hsend hfit hreq hack hiv
  refine ⟨piv, hmin, hrq, ?_⟩
  intro kctx kid' rb hrs hrb hov
  obtain ⟨v, hv⟩ := protect_ok hsend (parse_wire hfit) (not_ack hack)
  have hr : isRequest m.pkt = true := by rw [isRequest_pkt]; exact decide_eq_true hreq
  have hty := msgType_request hr
  have hnew : v.new = true := by
    rw [hv.new]; unfold needsNewPiv
    simp [hty.1]
  obtain ⟨hpiv, hkid, _, hnonce, _, hssn', _⟩ := hv.ifNew hnew
  have hpe : v.piv = piv := Spec.IsMinimalBE.unique (ssn2piv_minimal hpiv).1 hmin
  have hread := hv.read
  unfold readWrapper at hread
  rw [if_neg (by rintro (h | h); exact hty.1 h; exact hty.2 h)] at hread
  simp only [R.ok.injEq, Prod.mk.injEq] at hread
  obtain ⟨hrp, hrk⟩ := hread
  have hid : w.ctx.senderId.length + piv.length ≤ 7 := by
    have hct := hv.ct
    unfold coseEncrypt at hct
    obtain ⟨e, he, _⟩ := R.bind_eq_ok.1 hct
    have hn := createNonce_ok.1 hnonce
    have hpl := (ssn2piv_minimal hpiv).2.2
    have := (C26_aad_iff (kid := v.rk) (piv := v.rp) (by rw [← hrk, hkid]; omega) (by rw [← hrp]; omega)).1
      ⟨e, by rw [hv.aad, R.ok_bind]; exact he⟩
    rw [← hrk, ← hrp, hkid, hpe] at this
    exact this
  have hsame : SameIdentity w.ctx w'.ctx := by
    have h := step_identity cfg C w (.protect m.wire cap nvmW)
    have e : step cfg C w (.protect m.wire cap nvmW) = (.ok b, w') := hsend
    rw [e] at h
    exact h
  have hupd : updateWrapper cfg w.ctx.inter (msgType m.pkt) m.pkt.token v.uri v.rp v.rk = .ok w'.ctx.inter := by
    rw [hv.inter']; exact hv.upd
  obtain ⟨r, ho, hr1, hr2⟩ := updateWrapper_outstanding hdis hupd hty
  have hd' := (updateWrapper_distinct hdis hupd).1
  refine C67_receive_response_partial cfg C hC a rb w.ctx.senderId piv kctx kid' capR w'.ctx ?_ ?_ hobs hafit hrsp huri hrb hid hov
    ?_ (by omega) hd' ⟨r, ?_, ?_, ?_⟩ hcap
  · rw [hsame.recipientKey, hsame.commonIv]; exact hrs
  · rw [hv.nonce', nonce_eq hiv hnonce, hpe, hsame.commonIv]
  · rw [hsame.commonIv]; exact hiv
  · rw [htok]; exact ho
  · rw [hr2, ← hrk, hkid]
  · rw [hr1, ← hrp, hpe]

/-! ### where the full property is false -/

/-- **C67 is false**: RFC 8613 (8.3.1) lets a server use the nonce of the request for the first notification; the
library does not support that. -/
theorem C67_false_first_notification (cfg : Cfg) (C : Crypto) (hC : C.Lawful) (m : Msg) (b kid piv : Bytes)
    (kctx kid' : Option Bytes) (cap : Nat) (cl : Ctx)
    (hrs : responseSameNonce C cl.recipientKey cl.commonIv kid piv kctx kid' m = some b)
    (hobs : m.observes) (hfit : m.Fits cfg) (hrsp : ¬m.isReq) (hb : b.length < 65536)
    (hv : (optionValue [] kctx kid').length ≤ 255) (hssn : cl.ssn < 0x7FFFFF) :
    oscore2coap cfg C b cap cl = (.err .not_supported_feature, cl) := by
  obtain ⟨ct, henc, rfl⟩ := protect_some hrs
  obtain ⟨t, o, hparse, hopt, hpiv, _, hkid, hpl, hkl⟩ := received_parse hfit (ct := ct) (piv := []) (by simp) hv hb
  generalize hval : optionValue [] kctx kid' = v at *
  have hr : isRequest m.pkt = false := by rw [isRequest_pkt]; exact decide_eq_false hrsp
  obtain ⟨hOrsp, hOty⟩ := outer_msgType_response (ct := ct) (v := v) hr
  have hobs' : isObserve m.pkt.opts = true := by
    have := observes_pkt m
    rw [isObserve_redelta, isObserve_outer] at this
    rw [this]; exact decide_eq_true hobs
  have hobO : isObserve (oscorePkgGenerate m.pkt (redelta 0 (outerOpts m.pkt.opts)) ct v).opts = true := by
    rw [isObserve_msgType hOrsp, hOty]
    exact (isObserve_msgType hr).1 hobs'
  unfold oscore2coap
  rw [M.bind_get]
  have hfr : checkFreshness cl = .ok () := by
    unfold checkFreshness ssnOverflow; rw [if_neg (by omega)]
  rw [hfr, M.bind_lift_ok, hparse, M.bind_lift_ok]
  simp only
  rw [hopt, M.bind_lift_ok, size_lib hfit (hC.enc_len _ _ _ _ _ _ henc), M.bind_lift_ok, hOrsp]
  simp only [Bool.false_eq_true, if_false]
  have hun : unprotectResponse cfg C o (oscorePkgGenerate m.pkt (redelta 0 (outerOpts m.pkt.opts)) ct v) cl =
      (.err .not_supported_feature, cl) := by
    unfold unprotectResponse
    rw [M.bind_get, hobO]
    simp only [if_true]
    rw [if_neg (by rw [hpl]; simp)]
    rfl
  rw [M.run_bind, hun]

/-! ### non-vacuity: a GET, its response and a notification between two concrete contexts -/

/-- GET, token 0x4A, Uri-Path "tv" (`exGet`) -/
def exGetM : Msg := ⟨1, 0, 0x01, 0x1234, [0x4A], [(11, [0x74, 0x76])], []⟩
/-- GET with Observe 0 (`exObs`) -/
def exObsM : Msg := ⟨1, 0, 0x01, 0x1234, [0x4A], [(6, []), (11, [0x74, 0x76])], []⟩
/-- 2.05 "hi" (`exRsp`) -/
def exRspM : Msg := ⟨1, 2, 0x45, 0x1234, [0x4A], [], [0x68, 0x69]⟩
/-- 2.05 "hi" with Observe 5 (`exNotif`) -/
def exNotifM : Msg := ⟨1, 2, 0x45, 0x1234, [0x4A], [(6, [0x05])], [0x68, 0x69]⟩

example : exGetM.wire = exGet ∧ exObsM.wire = exObs ∧ exRspM.wire = exRsp ∧ exNotifM.wire = exNotif := by
  decide +kernel

theorem exGetM_fits : exGetM.Fits exCfg := by constructor <;> decide +kernel
theorem exObsM_fits : exObsM.Fits exCfg := by constructor <;> decide +kernel
theorem exRspM_fits : exRspM.Fits exCfg := by constructor <;> decide +kernel
theorem exNotifM_fits : exNotifM.Fits exCfg := by constructor <;> decide +kernel

/-- the client that has sent the GET, with sequence number 0 -/
def exAsked : Ctx := (afterSend exCfg (exW exClient) exGet).ctx
/-- the client that has sent the registration -/
def exRegistered : Ctx := (afterSend exCfg (exW exClient) exObs).ctx

theorem exAsked_remembers : Remembers exAsked.inter exRspM.token [0x0C] [0x00] := by
  have h : exAsked.inter = [some ⟨.request, [0x00], [0x0C], [0x4A], [0x74, 0x76]⟩, none, none] := by decide +kernel
  exact ⟨_, ⟨by rw [h]; exact List.mem_cons_self, rfl⟩, rfl, rfl⟩

theorem exRegistered_remembers : Remembers exRegistered.inter exNotifM.token [0x0C] [0x00] := by
  have h : exRegistered.inter = [some ⟨.registration, [0x00], [0x0C], [0x4A], [0x74, 0x76]⟩, none, none] := by decide +kernel
  exact ⟨_, ⟨by rw [h]; exact List.mem_cons_self, rfl⟩, rfl, rfl⟩

theorem exDistinct (m : Bytes) : Distinct (afterSend exCfg (exW exClient) m).ctx.inter :=
  (step_distinct exCfg toyCrypto _ _ (by
    have h : (exW exClient).ctx.inter = Table.init 3 := by decide +kernel
    rw [h]; exact distinct_init 3)).1

theorem exAsked_distinct : Distinct exAsked.inter := by unfold exAsked; exact exDistinct exGet
theorem exRegistered_distinct : Distinct exRegistered.inter := by unfold exRegistered; exact exDistinct exObs

/-- `C67_request`: the GET and the registration of the example client -/
example : ∃ piv, Spec.IsMinimalBE piv 0 ∧
    request toyCrypto exClient.senderKey exClient.commonIv [0x0C] piv none exGetM =
      some (sendOf exCfg (exW exClient) exGet) :=
  C67_request exCfg toyCrypto none exGetM _ 256 (exW exClient) (afterSend exCfg (exW exClient) exGet)
    (by decide +kernel) exGetM_fits (by decide) (by decide) (by decide +kernel)

/-- `C67_receive_request_partial`: a request with a Partial IV of two bytes (not the shortest) and a kid context -/
example : ∃ b srv', request toyCrypto exServer.recipientKey exServer.commonIv [0x0C] [0x00, 0x05] (some [0xAA]) exObsM = some b ∧
    oscore2coap exCfg toyCrypto b 256 exServer = (.ok exObs, srv') := by
  have hs := exServer_init
  have h : ∃ b, request toyCrypto exServer.recipientKey exServer.commonIv [0x0C] [0x00, 0x05] (some [0xAA]) exObsM = some b ∧
      b.length < 65536 := by
    refine ⟨(request toyCrypto exServer.recipientKey exServer.commonIv [0x0C] [0x00, 0x05] (some [0xAA]) exObsM).getD [], ?_, ?_⟩ <;>
      decide +kernel
  obtain ⟨b, hb, hl⟩ := h
  have hid : exServer.recipientId = [0x0C] := by decide +kernel
  have hin : exServer.inter = Table.init 3 := by decide +kernel
  obtain ⟨s, h1, _⟩ := C67_receive_request_partial exCfg toyCrypto toyCrypto_lawful exObsM b [0x00, 0x05] (some [0xAA]) 256 exServer
    (by rw [hid]; exact hb) exObsM_fits (by decide) (by decide +kernel) hl (by decide) (by decide +kernel) (by decide +kernel)
    (by decide +kernel) (by decide +kernel) (by decide +kernel) (by decide +kernel) (by rw [hin]; exact distinct_init 3)
    (by rw [hin]; exact ⟨by decide, by intro r h; simp [Table.init] at h⟩) (by decide +kernel)
  exact ⟨b, s, hb, h1⟩

/-- `C67_receive_response_partial` and `C67_receive_notification_partial` -/
example : (∃ b cl', responseSameNonce toyCrypto exAsked.recipientKey exAsked.commonIv [0x0C] [0x00] none none exRspM = some b ∧
      oscore2coap exCfg toyCrypto b 256 exAsked = (.ok exRsp, cl')) ∧
    (∃ b cl', responseNewPiv toyCrypto exRegistered.recipientKey exRegistered.commonIv exRegistered.recipientId [0x07] [0x0C] [0x00]
        none (some [0x05]) exNotifM = some b ∧
      oscore2coap exCfg toyCrypto b 256 exRegistered = (.ok (delivered exNotifM).wire, cl')) := by
  refine ⟨?_, ?_⟩
  · have h : ∃ b, responseSameNonce toyCrypto exAsked.recipientKey exAsked.commonIv [0x0C] [0x00] none none exRspM = some b ∧
        b.length < 65536 := by
      refine ⟨(responseSameNonce toyCrypto exAsked.recipientKey exAsked.commonIv [0x0C] [0x00] none none exRspM).getD [], ?_, ?_⟩ <;>
        decide +kernel
    obtain ⟨b, hb, hl⟩ := h
    obtain ⟨s, h1⟩ := C67_receive_response_partial exCfg toyCrypto toyCrypto_lawful exRspM b [0x0C] [0x00] none none 256 exAsked hb
      (by decide +kernel) (by decide) exRspM_fits (by decide) (by decide +kernel) hl (by decide) (by decide)
      (by decide +kernel) (by decide +kernel) exAsked_distinct exAsked_remembers (by decide +kernel)
    exact ⟨b, s, hb, h1⟩
  · have h : ∃ b, responseNewPiv toyCrypto exRegistered.recipientKey exRegistered.commonIv exRegistered.recipientId [0x07] [0x0C] [0x00]
        none (some [0x05]) exNotifM = some b ∧ b.length < 65536 := by
      refine ⟨(responseNewPiv toyCrypto exRegistered.recipientKey exRegistered.commonIv exRegistered.recipientId [0x07] [0x0C] [0x00]
        none (some [0x05]) exNotifM).getD [], ?_, ?_⟩ <;>
        decide +kernel
    obtain ⟨b, hb, hl⟩ := h
    obtain ⟨s, h1⟩ := C67_receive_notification_partial exCfg toyCrypto toyCrypto_lawful exNotifM b [0x07] [0x0C] [0x00] none (some [0x05])
      256 exRegistered hb (.inl (by decide +kernel)) (fun _ h => by revert h; decide +kernel) exNotifM_fits (by decide)
      (by decide +kernel) hl (by decide) (by decide +kernel) (by decide)
      (by decide +kernel) (by decide +kernel) (by decide +kernel) exRegistered_distinct exRegistered_remembers (by decide +kernel)
    exact ⟨b, s, hb, h1⟩


/-- the server that has received the GET of the client, and the one that has received its registration -/
def exServing : Ctx := (afterRecv exCfg (exW exServer) (sendOf exCfg (exW exClient) exGet)).ctx
def exObserved : Ctx := (afterRecv exCfg (exW exServer) (sendOf exCfg (exW exClient) exObs)).ctx

theorem exServer_distinct (m : Bytes) : Distinct (afterRecv exCfg (exW exServer) m).ctx.inter :=
  (step_distinct exCfg toyCrypto _ _ (by
    have h : (exW exServer).ctx.inter = Table.init 3 := by decide +kernel
    rw [h]; exact distinct_init 3)).1
theorem exServing_distinct : Distinct exServing.inter := by unfold exServing; exact exServer_distinct _
theorem exObserved_distinct : Distinct exObserved.inter := by unfold exObserved; exact exServer_distinct _

theorem exServing_remembers : Remembers exServing.inter exRspM.token [0x0C] [0x00] := by
  have h : exServing.inter = [some ⟨.request, [0x00], [0x0C], [0x4A], [0x74, 0x76]⟩, none, none] := by decide +kernel
  exact ⟨_, ⟨by rw [h]; exact List.mem_cons_self, rfl⟩, rfl, rfl⟩
theorem exObserved_remembers : Remembers exObserved.inter exNotifM.token [0x0C] [0x00] := by
  have h : exObserved.inter = [some ⟨.registration, [0x00], [0x0C], [0x4A], [0x74, 0x76]⟩, none, none] := by decide +kernel
  exact ⟨_, ⟨by rw [h]; exact List.mem_cons_self, rfl⟩, rfl, rfl⟩

/-- `C67_response_partial` and `C67_notification` -/
example : responseSameNonce toyCrypto exServing.senderKey exServing.commonIv [0x0C] [0x00] none none exRspM =
      some (sendOf exCfg (exW exServing) exRsp) ∧
    ∃ own, Spec.IsMinimalBE own exObserved.ssn ∧
      responseNewPiv toyCrypto exObserved.senderKey exObserved.commonIv exObserved.senderId own [0x0C] [0x00]
        (kidContext exObserved.idContext) (some exObserved.senderId) exNotifM = some (sendOf exCfg (exW exObserved) exNotif) :=
  ⟨C67_response_partial exCfg toyCrypto none exRspM _ 256 (exW exServing) (afterSend exCfg (exW exServing) exRsp) [0x0C] [0x00]
    (by decide +kernel) exRspM_fits (by decide) (by decide) (by decide +kernel) exServing_distinct exServing_remembers
    (by decide +kernel),
  C67_notification exCfg toyCrypto none exNotifM _ 256 (exW exObserved) (afterSend exCfg (exW exObserved) exNotif) [0x0C] [0x00]
    (by decide +kernel) exNotifM_fits (by decide) (by decide) exObserved_distinct exObserved_remembers
    (by decide +kernel)⟩

/-- `C67_ask_partial` and `C67_serve_partial` -/
example : (∃ piv, Spec.IsMinimalBE piv 0 ∧
      request toyCrypto exClient.senderKey exClient.commonIv exClient.senderId piv (kidContext exClient.idContext) exGetM =
        some (sendOf exCfg (exW exClient) exGet) ∧
      ∀ kctx kid' rb, responseSameNonce toyCrypto exClient.recipientKey exClient.commonIv exClient.senderId piv kctx kid' exRspM =
          some rb → rb.length < 65536 → (optionValue [] kctx kid').length ≤ 255 →
        ∃ cl', oscore2coap exCfg toyCrypto rb 256 exAsked = (.ok exRspM.wire, cl')) ∧
    ((oscore2coap exCfg toyCrypto (sendOf exCfg (exW exClient) exGet) 256 exServer).1 = .ok exGetM.wire ∧
      responseSameNonce toyCrypto exServer.senderKey exServer.commonIv exServer.recipientId [0x00] none none exRspM =
        some (sendOf exCfg (exW exServing) exRsp)) := by
  have hd : Distinct exServer.inter := by
    have hin : exServer.inter = Table.init 3 := by decide +kernel
    rw [hin]; exact distinct_init 3
  have hd' : Distinct (exW exClient).ctx.inter := by
    have hin : (exW exClient).ctx.inter = Table.init 3 := by decide +kernel
    rw [hin]; exact distinct_init 3
  have hr : HasRoom exServer.inter exGetM.token := by
    have hin : exServer.inter = Table.init 3 := by decide +kernel
    rw [hin]; exact ⟨by decide, by intro r h; simp [Table.init] at h⟩
  exact ⟨C67_ask_partial exCfg toyCrypto toyCrypto_lawful exGetM exRspM _ 256 256 none (exW exClient)
      (afterSend exCfg (exW exClient) exGet) (by decide +kernel) exGetM_fits (by decide) (by decide) (by decide +kernel)
      hd' (by decide +kernel) exRspM_fits (by decide) rfl (by decide) (by decide +kernel) (by decide +kernel),
    C67_serve_partial exCfg toyCrypto toyCrypto_lawful exGetM exRspM _ _ [0x00] none 256 256 none exServer exServing 0 []
      (afterSend exCfg (exW exServing) exRsp) (by decide +kernel) exGetM_fits (by decide) (by decide +kernel)
      (by decide +kernel) (by decide) (by decide +kernel) (by decide +kernel) (by decide +kernel) (by decide +kernel)
      (by decide +kernel) (by decide +kernel) hd hr (by decide +kernel) (by decide +kernel) exRspM_fits (by decide) rfl
      (by decide) (by decide +kernel)⟩

/-- **C67 is false**: RFC 8613 (8.3, 8.4) lets a server leave out the kid of a response that has a Partial IV of its
own (the client knows whom it asked); the library then builds the nonce with the empty ID of the packet instead of the
Recipient ID and rejects the response.  With the kid the same response is delivered. -/
theorem C67_false_no_kid :
    exRspM.Fits exCfg ∧ Remembers exAsked.inter exRspM.token exClient.senderId [0x00] ∧
    ∃ b b', responseNewPiv toyCrypto exAsked.recipientKey exAsked.commonIv exAsked.recipientId [0x00] exClient.senderId [0x00]
        none none exRspM = some b ∧
      (oscore2coap exCfg toyCrypto b 256 exAsked).1 = .err .unexpected_result_from_ext_lib ∧
      responseNewPiv toyCrypto exAsked.recipientKey exAsked.commonIv exAsked.recipientId [0x00] exClient.senderId [0x00]
        none (some exAsked.recipientId) exRspM = some b' ∧
      (oscore2coap exCfg toyCrypto b' 256 exAsked).1 = .ok exRspM.wire := by
  refine ⟨exRspM_fits, ?_, (responseNewPiv toyCrypto exAsked.recipientKey exAsked.commonIv exAsked.recipientId [0x00]
    exClient.senderId [0x00] none none exRspM).getD [], (responseNewPiv toyCrypto exAsked.recipientKey exAsked.commonIv
    exAsked.recipientId [0x00] exClient.senderId [0x00] none (some exAsked.recipientId) exRspM).getD [], ?_, ?_, ?_, ?_⟩
  · have h : exClient.senderId = [0x0C] := by decide +kernel
    rw [h]; exact exAsked_remembers
  all_goals decide +kernel

end Verif
