import Verif.Props.Send
/-
Properties C17, C20, C21, C31 and the API part of C32: the shape of the packets that
`coap2oscore` and `oscore2coap` write.
-/
namespace Verif

/-! ## helpers -/

theorem encPkt_take (q : Pkt) : ∃ rest, encPkt q =
    byte (q.ver * 64 + q.type * 16 + q.token.length) :: q.code :: byte (q.mid / 256) ::
      byte (q.mid % 256) :: (q.token ++ rest) := by
  refine ⟨encOpts q.opts ++ (if q.payload.length = 0 then [] else 0xFF :: q.payload), ?_⟩
  unfold encPkt coapHeaderBytes
  simp

theorem isObserve_redelta (prev : Nat) (l : List Opt) : isObserve (redelta prev l) = isObserve l := by
  induction l generalizing prev with
  | nil => rfl
  | cons o l ih =>
    have := ih o.num
    unfold isObserve at *
    simp only [redelta, List.any_cons, this]

theorem isObserve_outer (l : List Opt) : isObserve (outerOpts l) = isObserve l := by
  unfold isObserve outerOpts
  induction l with
  | nil => rfl
  | cons o l ih =>
    rw [List.filter_cons]
    by_cases h : o.num = optOBSERVE
    · simp [h]
    · have : (o.num == optOBSERVE) = false := by simpa using h
      simp only [this, Bool.false_or, List.any_cons]
      split
      · simp [this, ih]
      · exact ih

/-- the first four bytes and the token of a packet that was parsed -/
theorem coapParse_bytes {inp : Bytes} {p : Pkt} {t : List (Opt × Bytes)}
    (h : coapParse inp = .ok (p, t)) :
    ∃ h0 m1 m0 rest, inp = h0 :: p.code :: m1 :: m0 :: rest ∧
      byte (p.ver * 64 + p.type * 16 + p.token.length) = h0 ∧ byte (p.mid / 256) = m1 ∧
      byte (p.mid % 256) = m0 ∧ p.token = rest.take (h0.toNat % 16) ∧
      p.token.length = h0.toNat % 16 := by
  unfold coapParse at h
  match inp, h with
  | h0 :: c :: m1 :: m0 :: rest, h =>
    simp only at h
    split at h
    · rename_i hk
      obtain ⟨⟨opts, payload⟩, _, hq⟩ := R.bind_eq_ok.1 h
      simp only [R.pure_eq, R.ok.injEq, Prod.mk.injEq] at hq
      obtain ⟨rfl, _⟩ := hq
      have hl : (rest.take (h0.toNat % 16)).length = h0.toNat % 16 := by
        rw [List.length_take]; omega
      have b0 := toNat_lt256 h0
      have b1 := toNat_lt256 m1
      have b2 := toNat_lt256 m0
      refine ⟨h0, m1, m0, rest, rfl, ?_, ?_, ?_, rfl, hl⟩
      · simp only [hl]
        apply uint8_ext
        rw [byte_toNat] <;> omega
      · apply uint8_ext; rw [byte_toNat] <;> simp only <;> omega
      · apply uint8_ext; rw [byte_toNat] <;> simp only <;> omega
    · cases h

theorem coapDeserialize_parse {inp : Bytes} {p : Pkt} (h : coapDeserialize inp = .ok p) :
    ∃ t, coapParse inp = .ok (p, t) := by
  unfold coapDeserialize at h
  obtain ⟨⟨q, t⟩, hq, h⟩ := R.bind_eq_ok.1 h
  have : q = p := R.ok.inj h
  subst this
  exact ⟨t, hq⟩

/-- A packet `b` has the same version, type, token length, message ID and token as the packet `a`:
first byte, bytes 2 and 3, and the token agree. -/
def SameEnvelope (a b : Bytes) : Prop :=
  b[0]? = a[0]? ∧ b[2]? = a[2]? ∧ b[3]? = a[3]? ∧
    ∀ h, a[0]? = some h →
      (b.drop 4).take (h.toNat % 16) = (a.drop 4).take (h.toNat % 16) ∧
      ((b.drop 4).take (h.toNat % 16)).length = h.toNat % 16

theorem sameEnvelope_of {inp b : Bytes} {p q : Pkt} {t : List (Opt × Bytes)}
    (h : coapParse inp = .ok (p, t)) (hb : b = encPkt q) (hv : q.ver = p.ver) (ht : q.type = p.type)
    (hm : q.mid = p.mid) (hk : q.token = p.token) : SameEnvelope inp b := by
  obtain ⟨h0, m1, m0, rest, rfl, e0, e1, e2, e3, e4⟩ := coapParse_bytes h
  obtain ⟨r, hr⟩ := encPkt_take q
  rw [hv, ht, hm, hk, e0, e1, e2] at hr
  rw [hb, hr]
  refine ⟨rfl, rfl, rfl, ?_⟩
  intro h' hh
  simp only [List.getElem?_cons_zero, Option.some.injEq] at hh
  subst hh
  simp only [List.drop_succ_cons, List.drop_zero]
  have hl : (p.token ++ r).take (h0.toNat % 16) = p.token := by rw [← e4, List.take_left]
  rw [hl]
  exact ⟨e3, e4⟩

/-! ## C21 -/

/-- **C21** `coap2oscore` keeps version, type, token length, message ID and token. -/
theorem C21_protect (cfg : Cfg) (C : Crypto) (nvmW : Option Err) (inp b : Bytes) (cap : Nat) (w : World)
    (h : (coap2oscore cfg C nvmW inp cap w).1 = .ok b) : SameEnvelope inp b := by
  have he := coap2oscore_effect cfg C nvmW inp cap w
  rw [h] at he
  generalize hr : (R.ok b : R Bytes) = r at he
  generalize (coap2oscore cfg C nvmW inp cap w).2 = w' at he
  cases he with
  | unchanged hn => exact absurd hr.symm (hn b)
  | emptyAck hf hp hack hcap =>
    obtain rfl := R.ok.inj hr
    obtain ⟨t, ht⟩ := coapDeserialize_parse hp
    obtain ⟨h0, m1, m0, rest, rfl, _, _, _, e3, e4⟩ := coapParse_bytes ht
    refine ⟨rfl, rfl, rfl, ?_⟩
    intro h' hh
    simp only [List.getElem?_cons_zero, Option.some.injEq] at hh
    subst hh
    exact ⟨rfl, by simp only [List.drop_succ_cons, List.drop_zero]; rw [← e3]; exact e4⟩
  | enc hf hp hack hs hlen hpt hev henc =>
    obtain ⟨x, _, hout⟩ := R.bind_eq_ok.1 hr.symm
    obtain ⟨hb, _, _⟩ := coapSerialize_ok.1 hout
    obtain ⟨t, ht⟩ := coapDeserialize_parse hp
    exact sameEnvelope_of ht hb rfl rfl rfl rfl

theorem DecEffect.out {cfg C opt p c out pt c'} (h : DecEffect cfg C opt p c (.ok (out, pt)) c') :
    ∃ code opts payload, out = { p with code := code, opts := opts, payload := payload } := by
  generalize hr : (R.ok (out, pt) : R (Pkt × Bytes)) = r at h
  cases h with
  | unchanged hn => exact absurd hr.symm (hn _)
  | auth hread hnonce haad hpt hres =>
    rcases hres with ⟨out', uri, h1, h2, _⟩ | ⟨h1, _⟩
    · rw [h1] at hr
      obtain ⟨rfl, rfl⟩ := Prod.mk.inj (R.ok.inj hr)
      unfold oCoapPkgGenerate at h2
      obtain ⟨⟨code, e, payload⟩, _, h2⟩ := R.bind_eq_ok.1 h2
      obtain ⟨opts, _, h2⟩ := R.bind_eq_ok.1 h2
      exact ⟨code, opts, payload, (R.ok.inj h2).symm⟩
    · exact absurd hr.symm (h1 _)

/-- **C21** `oscore2coap` keeps version, type, token length, message ID and token. -/
theorem C21_unprotect (cfg : Cfg) (C : Crypto) (inp b : Bytes) (cap : Nat) (c : Ctx)
    (h : (oscore2coap cfg C inp cap c).1 = .ok b) : SameEnvelope inp b := by
  have he := oscore2coap_effect cfg C inp cap c
  rw [h] at he
  generalize hr : (R.ok b : R Bytes) = r at he
  generalize (oscore2coap cfg C inp cap c).2 = c' at he
  cases he with
  | unchanged hn => exact absurd hr.symm (hn b)
  | reqFail _ _ _ _ _ _ _ _ hn => exact absurd hr.symm (hn b)
  | reqOk hf hp ho hreq hkid hrep hdec ha =>
    obtain ⟨x, _, hout⟩ := R.bind_eq_ok.1 hr.symm
    obtain ⟨hb, _, _⟩ := coapSerialize_ok.1 hout
    obtain ⟨code, opts, payload, rfl⟩ := hdec.out
    exact sameEnvelope_of hp hb rfl rfl rfl rfl
  | rspFail _ _ _ _ _ _ _ hn => exact absurd hr.symm (hn b)
  | notifOk hf hp _ _ _ _ _ _ hdec =>
    obtain ⟨hb, _, _⟩ := coapSerialize_ok.1 hr.symm
    obtain ⟨code, opts, payload, rfl⟩ := hdec.out
    exact sameEnvelope_of hp hb rfl rfl rfl rfl
  | rspOk hf hp _ _ _ _ hdec =>
    obtain ⟨hb, _, _⟩ := coapSerialize_ok.1 hr.symm
    obtain ⟨code, opts, payload, rfl⟩ := hdec.out
    exact sameEnvelope_of hp hb rfl rfl rfl rfl

example : SameEnvelope exGet (sendOf exCfg (exW exClient) exGet) :=
  C21_protect exCfg toyCrypto none exGet _ 256 (exW exClient) (by decide +kernel)

/-! ## C20 -/

/-- **C20** The code of a protected message depends only on whether the message is a request or a
response and whether it has an Observe option: POST/FETCH or 2.04/2.05. -/
theorem C20_outer_code (cfg : Cfg) (C : Crypto) (nvmW : Option Err) (inp b : Bytes) (cap : Nat)
    (w : World) (p : Pkt) (hp : coapDeserialize inp = .ok p) (hack : ¬(p.type = 2 ∧ p.code = 0))
    (h : (coap2oscore cfg C nvmW inp cap w).1 = .ok b) :
    b[1]? = some (if p.code.toNat < 32 then (if ∃ o ∈ p.opts, o.num = 6 then 0x05 else 0x02)
      else (if ∃ o ∈ p.opts, o.num = 6 then 0x45 else 0x44)) := by
  obtain ⟨v, hv⟩ := protect_ok (w' := (coap2oscore cfg C nvmW inp cap w).2) (Prod.ext h rfl) hp hack
  obtain ⟨hb, _, _⟩ := coapSerialize_ok.1 hv.out
  obtain ⟨r, hr⟩ := encPkt_take (oscorePkgGenerate p (redelta 0 (outerOpts p.opts)) v.ct v.opt)
  rw [hb, hr]
  simp only [List.getElem?_cons_succ, List.getElem?_cons_zero, Option.some.injEq]
  have hobs : isObserve (redelta 0 (outerOpts p.opts)) = true ↔ ∃ o ∈ p.opts, o.num = 6 := by
    rw [isObserve_redelta, isObserve_outer]
    unfold isObserve optOBSERVE
    simp [List.any_eq_true]
  have hreq : isRequest p = true ↔ p.code.toNat < 32 := by
    unfold isRequest; simp only [beq_iff_eq]; omega
  unfold oscorePkgGenerate
  simp only
  by_cases h1 : isRequest p = true <;> by_cases h2 : isObserve (redelta 0 (outerOpts p.opts)) = true
  · rw [if_pos h1, if_pos h2, if_pos (hreq.1 h1), if_pos (hobs.1 h2)]
  · rw [if_pos h1, if_neg h2, if_pos (hreq.1 h1), if_neg (fun h => h2 (hobs.2 h))]
  · rw [if_neg h1, if_pos h2, if_neg (fun h => h1 (hreq.2 h)), if_pos (hobs.1 h2)]
  · rw [if_neg h1, if_neg h2, if_neg (fun h => h1 (hreq.2 h)), if_neg (fun h => h2 (hobs.2 h))]

example : (sendOf exCfg (exW exClient) exGet)[1]? = some 0x02 ∧
    (sendOf exCfg (exW exClient) exObs)[1]? = some 0x05 := by decide +kernel

/-! ## C31 -/

/-- **C31** An empty ACK (type 2, code 0.00) is copied byte for byte and the world is unchanged. -/
theorem C31_empty_ack_partial (cfg : Cfg) (C : Crypto) (nvmW : Option Err) (inp : Bytes) (cap : Nat) (w : World)
    (p : Pkt) (hssn : w.ctx.ssn < 0x7FFFFF) (hp : coapDeserialize inp = .ok p)
    (hack : p.type = 2 ∧ p.code = 0) (hcap : inp.length ≤ cap) :
    coap2oscore cfg C nvmW inp cap w = (.ok inp, w) := by
  unfold coap2oscore
  rw [M.bind_get]
  have hf : checkFreshness w.ctx = .ok () := by
    unfold checkFreshness ssnOverflow; rw [if_neg (by omega)]
  rw [hf, M.bind_lift_ok, hp, M.bind_lift_ok, if_pos hack, if_neg (by omega)]
  rfl

/-- **C31 / C32 are false** when the announced output buffer is shorter than the ACK: the copy does
not look at the output length (`*buf_oscore_len` is not read), so it writes past the end. -/
theorem C31_false_small_buffer (cfg : Cfg) (C : Crypto) (nvmW : Option Err) (inp : Bytes) (cap : Nat)
    (w : World) (p : Pkt) (hssn : w.ctx.ssn < 0x7FFFFF) (hp : coapDeserialize inp = .ok p)
    (hack : p.type = 2 ∧ p.code = 0) (hcap : cap < inp.length) :
    (coap2oscore cfg C nvmW inp cap w).1 = .ub := by
  unfold coap2oscore
  rw [M.bind_get]
  have hf : checkFreshness w.ctx = .ok () := by
    unfold checkFreshness ssnOverflow; rw [if_neg (by omega)]
  rw [hf, M.bind_lift_ok, hp, M.bind_lift_ok, if_pos hack, if_pos hcap]
  rfl

example : coap2oscore exCfg toyCrypto none [0x60, 0, 0x12, 0x34] 4 (exW exServer) =
    (.ok [0x60, 0, 0x12, 0x34], exW exServer) := by decide +kernel

/-! ## C32 -/

/-- **C32** (partial) When `coap2oscore` returns ok, the packet fits the announced buffer.  Missing:
the three overflows `C31_false_small_buffer`, `C32_false_header`, `C32_false_marker`. -/
theorem C32_protect_fits_partial (cfg : Cfg) (C : Crypto) (nvmW : Option Err) (inp b : Bytes) (cap : Nat)
    (w : World) (h : (coap2oscore cfg C nvmW inp cap w).1 = .ok b) : b.length ≤ cap := by
  have he := coap2oscore_effect cfg C nvmW inp cap w
  rw [h] at he
  generalize hr : (R.ok b : R Bytes) = r at he
  generalize (coap2oscore cfg C nvmW inp cap w).2 = w' at he
  cases he with
  | unchanged hn => exact absurd hr.symm (hn b)
  | emptyAck hf hp hack hcap => obtain rfl := R.ok.inj hr; exact hcap
  | enc hf hp hack hs hlen hpt hev henc =>
    obtain ⟨x, _, hout⟩ := R.bind_eq_ok.1 hr.symm
    exact (coapSerialize_ok.1 hout).2.1

/-- **C32** (partial) When `oscore2coap` returns ok, the packet fits the announced buffer. -/
theorem C32_unprotect_fits_partial (cfg : Cfg) (C : Crypto) (inp b : Bytes) (cap : Nat) (c : Ctx)
    (h : (oscore2coap cfg C inp cap c).1 = .ok b) : b.length ≤ cap := by
  have he := oscore2coap_effect cfg C inp cap c
  rw [h] at he
  generalize hr : (R.ok b : R Bytes) = r at he
  generalize (oscore2coap cfg C inp cap c).2 = c' at he
  cases he with
  | unchanged hn => exact absurd hr.symm (hn b)
  | reqFail _ _ _ _ _ _ _ _ hn => exact absurd hr.symm (hn b)
  | reqOk hf hp ho hreq hkid hrep hdec ha =>
    obtain ⟨x, _, hout⟩ := R.bind_eq_ok.1 hr.symm
    exact (coapSerialize_ok.1 hout).2.1
  | rspFail _ _ _ _ _ _ _ hn => exact absurd hr.symm (hn b)
  | notifOk => exact (coapSerialize_ok.1 hr.symm).2.1
  | rspOk => exact (coapSerialize_ok.1 hr.symm).2.1

/-! ## C17 -/

/-- option numbers that are not encrypted: Uri-Host, Observe (copied), Uri-Port, OSCORE, EDHOC,
Proxy-Uri, Proxy-Scheme -/
def PublicOption (n : Nat) : Prop := n = 3 ∨ n = 6 ∨ n = 7 ∨ n = 9 ∨ n = 21 ∨ n = 35 ∨ n = 39

instance (n) : Decidable (PublicOption n) := by unfold PublicOption; infer_instance

theorem public_iff {o : Opt} : (o.num == optOBSERVE || !isClassE o.num) = true ↔ PublicOption o.num := by
  unfold PublicOption isClassE optOBSERVE optURI_HOST optURI_PORT optOSCORE optPROXY_URI optPROXY_SCHEME
    optEDHOC
  simp only [Bool.or_eq_true, beq_iff_eq, Bool.not_eq_true', Bool.and_eq_false_iff, bne_eq_false_iff_eq]
  omega

theorem outerOpts_eq (l : List Opt) : outerOpts l = l.filter (fun o => decide (PublicOption o.num)) := by
  unfold outerOpts
  apply List.filter_congr
  intro o _
  rw [Bool.eq_iff_iff, public_iff]
  simp

/-- `ct` is the result of the AEAD call `e`: its key, nonce, additional data (in the COSE structure) and plaintext -/
def Sealed (C : Crypto) (e : EncCall) (ct : Bytes) : Prop :=
  ∃ a, encStructure e.aad = .ok a ∧ C.aeadEnc e.key e.nonce a 8 e.pt = some ct

theorem sealed_of {C : Crypto} {pt n a k ct : Bytes} {s : Option Nat} (h : coseEncrypt C pt n a k = .ok ct) :
    Sealed C ⟨k, n, a, pt, s⟩ ct := by
  unfold coseEncrypt at h
  obtain ⟨s, hs, h⟩ := R.bind_eq_ok.1 h
  refine ⟨s, hs, ?_⟩
  unfold ofLib at h
  show C.aeadEnc k n s 8 pt = some ct
  cases hx : C.aeadEnc k n s tagLen pt with
  | none => rw [hx] at h; cases h
  | some c => rw [hx] at h; rw [← R.ok.inj h]; exact hx

/-- **C17** Every option of a protected message is the OSCORE option or one of the public options of
the original message; its payload is the result of the one AEAD call made, under the Sender Key. -/
theorem C17_outer_options (cfg : Cfg) (C : Crypto) (nvmW : Option Err) (inp b : Bytes) (cap : Nat)
    (w : World) (p q : Pkt) (t : List (Opt × Bytes)) (hcfg : cfg.maxCoapOptions ≤ 260)
    (hb : b.length < 65536) (hpl : PlainCoap inp p)
    (h : (coap2oscore cfg C nvmW inp cap w).1 = .ok b) (hq : coapParse b = .ok (q, t)) :
    (∀ o ∈ q.opts, o.num = 9 ∨ (PublicOption o.num ∧ ∃ o' ∈ p.opts, o'.num = o.num ∧ o'.value = o.value)) ∧
    ∃ e, (coap2oscore cfg C nvmW inp cap w).2.log = e :: w.log ∧ e.key = w.ctx.senderKey ∧ Sealed C e q.payload := by
  obtain ⟨v, hv⟩ := protect_ok (w' := (coap2oscore cfg C nvmW inp cap w).2) (Prod.ext h rfl)
    hpl.parse hpl.notAck
  obtain ⟨t', o, h1, _⟩ := hv.parsed hcfg hb hpl.outer hpl.noOscore
  rw [hq] at h1
  obtain ⟨rfl, rfl⟩ := Prod.mk.inj (R.ok.inj h1)
  constructor
  · intro o ho
    rw [oscorePkg_opts redelta_outer_le] at ho
    obtain ⟨o1, m1, n1, v1⟩ := mem_redelta ho
    rcases mem_protectedOpts.1 m1 with m1 | rfl
    · right
      obtain ⟨o2, m2, n2, v2⟩ := mem_redelta m1
      rw [outerOpts_eq, List.mem_filter] at m2
      refine ⟨?_, o2, m2.1, by rw [n2, n1], by rw [v2, v1]⟩
      rw [← n1, ← n2]; simpa using m2.2
    · left; exact n1.symm
  · exact ⟨_, hv.log, rfl, sealed_of hv.ct⟩

/-- What an observer may know of a message: everything but the code (beyond request / response), the
class E options and the payload. -/
structure SamePublic (p q : Pkt) : Prop where
  ver : p.ver = q.ver
  type : p.type = q.type
  mid : p.mid = q.mid
  token : p.token = q.token
  req : (p.code.toNat < 32) ↔ (q.code.toNat < 32)
  opts : (p.opts.filter (fun o => decide (PublicOption o.num))).map (fun o => (o.num, o.value)) =
    (q.opts.filter (fun o => decide (PublicOption o.num))).map (fun o => (o.num, o.value))

theorem getObserve_outer (l : List Opt) : getObserveValue (outerOpts l) = getObserveValue l := by
  unfold getObserveValue outerOpts
  induction l with
  | nil => rfl
  | cons o l ih =>
    rw [List.filter_cons]
    by_cases h : o.num = optOBSERVE
    · simp [h]
    · have : (o.num == optOBSERVE) = false := by simpa using h
      simp only [this, Bool.false_or]
      split
      · rw [List.find?_cons_of_neg (by simp [this]), List.find?_cons_of_neg (by simp [this])]; exact ih
      · rw [List.find?_cons_of_neg (by simp [this])]; exact ih

theorem getObserve_map {l m : List Opt}
    (h : l.map (fun o => (o.num, o.value)) = m.map (fun o => (o.num, o.value))) :
    getObserveValue l = getObserveValue m := by
  induction l generalizing m with
  | nil =>
    cases m with
    | nil => rfl
    | cons a m => simp at h
  | cons a l ih =>
    cases m with
    | nil => simp at h
    | cons b m =>
      simp only [List.map_cons, List.cons.injEq, Prod.mk.injEq] at h
      obtain ⟨⟨h1, h2⟩, h3⟩ := h
      have := ih h3
      unfold getObserveValue at *
      by_cases hb : b.num = optOBSERVE
      · simp [List.find?_cons, h1, hb, h2]
      · have hb' : (b.num == optOBSERVE) = false := by simpa using hb
        simp [List.find?_cons, h1, hb', this]

theorem redelta_map {prev : Nat} {l m : List Opt}
    (h : l.map (fun o => (o.num, o.value)) = m.map (fun o => (o.num, o.value))) :
    redelta prev l = redelta prev m := by
  induction l generalizing m prev with
  | nil =>
    cases m with
    | nil => rfl
    | cons a m => simp at h
  | cons a l ih =>
    cases m with
    | nil => simp at h
    | cons b m =>
      simp only [List.map_cons, List.cons.injEq, Prod.mk.injEq] at h
      obtain ⟨⟨h1, h2⟩, h3⟩ := h
      simp only [redelta]
      rw [← h1, ih h3, h2]

/-- **C17** Two messages with the same public part, protected in the same state, give packets that
agree in every byte except the ciphertext, which is the result of the AEAD call made with the Sender Key and, in both
cases, the same nonce and additional data: no byte outside the ciphertext depends on the method or
response code, a class E option or the payload. -/
theorem C17_only_ciphertext_differs (cfg : Cfg) (C : Crypto) (hC : C.Lawful) (nvmW : Option Err)
    (inp₁ inp₂ b₁ b₂ : Bytes) (cap₁ cap₂ : Nat) (w : World) (p₁ p₂ : Pkt)
    (hp₁ : coapDeserialize inp₁ = .ok p₁) (hp₂ : coapDeserialize inp₂ = .ok p₂)
    (ha₁ : ¬(p₁.type = 2 ∧ p₁.code = 0)) (ha₂ : ¬(p₂.type = 2 ∧ p₂.code = 0))
    (hpub : SamePublic p₁ p₂)
    (h₁ : (coap2oscore cfg C nvmW inp₁ cap₁ w).1 = .ok b₁)
    (h₂ : (coap2oscore cfg C nvmW inp₂ cap₂ w).1 = .ok b₂) :
    ∃ pre ct₁ ct₂ e₁ e₂, b₁ = pre ++ ct₁ ∧ b₂ = pre ++ ct₂ ∧
      (coap2oscore cfg C nvmW inp₁ cap₁ w).2.log = e₁ :: w.log ∧ Sealed C e₁ ct₁ ∧
      (coap2oscore cfg C nvmW inp₂ cap₂ w).2.log = e₂ :: w.log ∧ Sealed C e₂ ct₂ ∧
      e₁.key = w.ctx.senderKey ∧ e₂.key = w.ctx.senderKey ∧ e₁.nonce = e₂.nonce ∧ e₁.aad = e₂.aad := by
  obtain ⟨v, hv⟩ := protect_ok (w' := (coap2oscore cfg C nvmW inp₁ cap₁ w).2) (Prod.ext h₁ rfl) hp₁ ha₁
  obtain ⟨u, hu⟩ := protect_ok (w' := (coap2oscore cfg C nvmW inp₂ cap₂ w).2) (Prod.ext h₂ rfl) hp₂ ha₂
  have hreq : isRequest p₁ = isRequest p₂ := by
    have e : ∀ p : Pkt, isRequest p = true ↔ p.code.toNat < 32 := by
      intro p; unfold isRequest; simp only [beq_iff_eq]; omega
    rw [Bool.eq_iff_iff, e, e]; exact hpub.req
  have hopts := hpub.opts
  rw [← outerOpts_eq, ← outerOpts_eq] at hopts
  have hty : msgType p₁ = msgType p₂ := by
    unfold msgType
    rw [hreq, ← getObserve_outer p₁.opts, ← getObserve_outer p₂.opts, getObserve_map hopts]
  have hnew : v.new = u.new := by rw [hv.new, hu.new, hty]
  have hsame : v.piv = u.piv ∧ v.kid = u.kid ∧ v.kctx = u.kctx ∧ v.nonce = u.nonce := by
    cases hn : v.new with
    | true =>
      obtain ⟨a1, a2, a3, a4, _⟩ := hv.ifNew hn
      obtain ⟨b1, b2, b3, b4, _⟩ := hu.ifNew (hnew ▸ hn)
      rw [a1] at b1
      have e1 := R.ok.inj b1
      rw [← e1, a4] at b4
      exact ⟨e1, by rw [a2, b2], by rw [a3, b3], R.ok.inj b4⟩
    | false =>
      obtain ⟨a1, a2, a3, a4, _⟩ := hv.ifReuse hn
      obtain ⟨b1, b2, b3, b4, _⟩ := hu.ifReuse (hnew ▸ hn)
      exact ⟨by rw [a1, b1], by rw [a2, b2], by rw [a3, b3], by rw [a4, b4]⟩
  obtain ⟨e1, e2, e3, e4⟩ := hsame
  have hopt : v.opt = u.opt := by
    have := hv.opt; rw [e1, e2, e3, hu.opt] at this; exact (R.ok.inj this).symm
  have hrr : (v.rp, v.rk) = (u.rp, u.rk) := by
    have := hv.read
    rw [e1, e2, hty, hpub.token, hu.read] at this
    exact (R.ok.inj this).symm
  obtain ⟨e5, e6⟩ := Prod.mk.inj hrr
  have haad : v.aad = u.aad := by
    have := hv.aad; rw [e5, e6, hu.aad] at this; exact (R.ok.inj this).symm
  obtain ⟨s1, hs1, hct1⟩ := sealed_of (s := none) hv.ct
  obtain ⟨s2, hs2, hct2⟩ := sealed_of (s := none) hu.ct
  dsimp only at hct1 hct2
  have l1 := hC.enc_len _ _ _ _ _ _ hct1
  have l2 := hC.enc_len _ _ _ _ _ _ hct2
  obtain ⟨hb1, _, _⟩ := coapSerialize_ok.1 hv.out
  obtain ⟨hb2, _, _⟩ := coapSerialize_ok.1 hu.out
  have hshape : ∀ (p : Pkt) (us : List Opt) (ct o : Bytes), ct.length ≠ 0 →
      encPkt (oscorePkgGenerate p us ct o) =
        (coapHeaderBytes (oscorePkgGenerate p us [] o) ++ p.token ++
          encOpts (oscorePkgGenerate p us [] o).opts ++ [0xFF]) ++ ct := by
    intro p us ct o hne
    unfold encPkt
    have : (oscorePkgGenerate p us ct o).payload = ct := rfl
    rw [this, if_neg hne]
    simp only [List.append_assoc, List.cons_append, List.nil_append]
    rfl
  rw [hshape _ _ _ _ (by omega)] at hb1 hb2
  have hpre : coapHeaderBytes (oscorePkgGenerate p₁ (redelta 0 (outerOpts p₁.opts)) [] v.opt) ++ p₁.token ++
      encOpts (oscorePkgGenerate p₁ (redelta 0 (outerOpts p₁.opts)) [] v.opt).opts ++ [0xFF] =
      coapHeaderBytes (oscorePkgGenerate p₂ (redelta 0 (outerOpts p₂.opts)) [] u.opt) ++ p₂.token ++
      encOpts (oscorePkgGenerate p₂ (redelta 0 (outerOpts p₂.opts)) [] u.opt).opts ++ [0xFF] := by
    rw [redelta_map hopts, hopt]
    unfold coapHeaderBytes oscorePkgGenerate
    simp only
    rw [hreq, hpub.ver, hpub.type, hpub.mid, hpub.token]
  rw [hpre] at hb1
  exact ⟨_, v.ct, u.ct, _, _, hb1, hb2, hv.log, sealed_of hv.ct, hu.log, sealed_of hu.ct, rfl, rfl, e4, haad⟩

/-- non-vacuity: GET and PUT with different paths and payloads have the same public part -/
example : SamePublic ⟨1, 0, 1, 7, [0x4A], [⟨11, [0x74, 0x76], 11⟩], []⟩
    ⟨1, 0, 3, 7, [0x4A], [⟨11, [0x75], 11⟩, ⟨1, [0], 12⟩], [1, 2, 3]⟩ :=
  ⟨rfl, rfl, rfl, rfl, by decide, by decide⟩

end Verif
