import Verif.Lemmas.OuterLemmas
import Verif.Lemmas.FrameLemmas
/-
Everything that is known after a successful `coap2oscore` on a message that gets encrypted.
-/
namespace Verif

/-- the values computed on the way -/
structure ProtVals where
  pt : Bytes
  ev : Bytes
  new : Bool
  piv : Bytes
  kid : Bytes
  kctx : Bytes
  opt : Bytes
  rp : Bytes
  rk : Bytes
  nonce : Bytes
  aad : Bytes
  ct : Bytes
  uri : Bytes
  t : Table

/-- the relations between them -/
structure ProtOk (cfg : Cfg) (C : Crypto) (nvmW : Option Err) (p : Pkt) (cap : Nat) (w : World)
    (b : Bytes) (w' : World) (v : ProtVals) : Prop where
  ssn : w.ctx.ssn < 0x7FFFFF
  range : PktRange p
  lenOk : plaintextLen p (eBytes (isRequest p) p.opts % 65536) ≤ cfg.maxPlaintext
  pt : plaintextSetup cfg p (redelta 0 (innerOpts (isRequest p) p.opts))
    (plaintextLen p (eBytes (isRequest p) p.opts % 65536)) = .ok v.pt
  ev : if w.ctx.echo = .verify then
      cacheEchoVal w.ctx.echoVal (redelta 0 (innerOpts (isRequest p) p.opts)) = .ok v.ev
    else v.ev = w.ctx.echoVal
  new : v.new = needsNewPiv (msgType p) w.ctx.echo
  ifNew : v.new = true → ssn2piv w.ctx.ssn = .ok v.piv ∧ v.kid = w.ctx.senderId ∧
    v.kctx = w.ctx.idContext ∧ createNonce w.ctx.senderId v.piv w.ctx.commonIv = .ok v.nonce ∧
    (nvmWriteDue cfg w.ctx → nvmW = none) ∧
    w'.ctx.ssn = w.ctx.ssn + 1 ∧
    w'.nvm = (if nvmWriteDue cfg w.ctx then w.ctx.ssn + 1 else w.nvm)
  ifReuse : v.new = false → v.piv = [] ∧ v.kid = [] ∧ v.kctx = [] ∧ v.nonce = w.ctx.nonce ∧
    w'.ctx.ssn = w.ctx.ssn ∧ w'.nvm = w.nvm
  opt : oscoreOptionGenerate v.piv v.kid v.kctx = .ok v.opt
  read : readWrapper w.ctx.inter (msgType p) p.token (.ok (v.piv, v.kid)) = .ok (v.rp, v.rk)
  aad : createAad v.rk v.rp = .ok v.aad
  ct : coseEncrypt C v.pt v.nonce v.aad w.ctx.senderKey = .ok v.ct
  uri : uriPathCreate p.opts cfg.uriMax = .ok v.uri
  upd : updateWrapper cfg w.ctx.inter (msgType p) p.token v.uri v.rp v.rk = .ok v.t
  out : coapSerialize cfg (oscorePkgGenerate p (redelta 0 (outerOpts p.opts)) v.ct v.opt) cap = .ok b
  log : w'.log = { key := w.ctx.senderKey, nonce := v.nonce, aad := v.aad, pt := v.pt,
                   newSsn := if v.new then some w.ctx.ssn else none } :: w.log
  nonce' : w'.ctx.nonce = v.nonce
  inter' : w'.ctx.inter = v.t
  echoVal' : w'.ctx.echoVal = v.ev

theorem protect_ok {cfg : Cfg} {C : Crypto} {nvmW : Option Err} {inp : Bytes} {cap : Nat} {w w' : World}
    {b : Bytes} {p : Pkt} (h : coap2oscore cfg C nvmW inp cap w = (.ok b, w'))
    (hp : coapDeserialize inp = .ok p) (hack : ¬(p.type = 2 ∧ p.code = 0)) :
    ∃ v, ProtOk cfg C nvmW p cap w b w' v := by
  have he := coap2oscore_effect cfg C nvmW inp cap w
  rw [h] at he
  simp only at he
  generalize hr : (R.ok b : R Bytes) = r at he
  cases he with
  | unchanged hn => exact absurd hr.symm (hn b)
  | emptyAck hf hp' hack' hcap =>
    rw [hp] at hp'; obtain rfl := R.ok.inj hp'
    exact absurd hack' hack
  | @enc p' s pt ev r _ hf hp' hack' hs hlen hpt hev henc =>
    rw [hp] at hp'; obtain rfl := R.ok.inj hp'
    obtain ⟨x, hx, hout⟩ := R.bind_eq_ok.1 hr.symm
    subst hx
    have hrange := coapDeserialize_wf hp
    obtain ⟨_, hseq⟩ := optionSplit_ok hrange.nums hs
    have se : s.e = redelta 0 (innerOpts (isRequest p) p.opts) := by rw [hseq]
    have su : s.u = redelta 0 (outerOpts p.opts) := by rw [hseq]
    have sl : s.eLen = eBytes (isRequest p) p.opts % 65536 := by rw [hseq]
    rw [se, sl] at hpt
    rw [sl] at hlen
    rw [se] at hev
    rw [su] at hout
    generalize hrr : (R.ok x : R (Bytes × Bytes)) = rr at henc
    cases henc with
    | unchanged hn => exact absurd hrr.symm (hn x)
    | consumed hn _ => exact absurd hrr.symm (hn x)
    | @fresh piv nonce rp rk aad ct opt t hn hw hpiv hnonce hopt hread haad hct hres =>
      rcases hres with ⟨h1, uri, h2, h3⟩ | ⟨h1, _⟩
      · rw [h1] at hrr
        obtain rfl := R.ok.inj hrr
        refine ⟨⟨pt, ev, true, piv, w.ctx.senderId, w.ctx.idContext, opt, rp, rk, nonce, aad, ct, uri, t⟩,
          hf, hrange, hlen, hpt, hev, hn.symm, ?_, ?_, hopt, hread, haad, hct, h2, h3, hout, ?_, rfl, rfl, rfl⟩
        · intro _
          refine ⟨hpiv, rfl, rfl, hnonce, hw, rfl, ?_⟩
          simp only [bumped]
          have hw' : nvmWriteDue cfg w.ctx → nvmW = none := hw
          by_cases hd : nvmWriteDue cfg w.ctx
          · have hd2 : nvmWriteDue cfg (withEcho w ev).ctx := hd
            rw [if_pos hd, if_pos ⟨hd2, hw' hd⟩]; rfl
          · have hd2 : ¬nvmWriteDue cfg (withEcho w ev).ctx := hd
            rw [if_neg hd, if_neg (fun hh => hd2 hh.1)]; rfl
        · intro hh; cases hh
        · rfl
      · exact absurd hrr.symm (h1 x)
    | @reuse rp rk aad ct opt t hn hopt hread haad hct hres =>
      rcases hres with ⟨h1, uri, h2, h3⟩ | ⟨h1, _⟩
      · rw [h1] at hrr
        obtain rfl := R.ok.inj hrr
        refine ⟨⟨pt, ev, false, [], [], [], opt, rp, rk, w.ctx.nonce, aad, ct, uri, t⟩,
          hf, hrange, hlen, hpt, hev, hn.symm, ?_, ?_, hopt, hread, haad, hct, h2, h3, hout, ?_, rfl, rfl, rfl⟩
        · intro hh; cases hh
        · intro _; exact ⟨rfl, rfl, rfl, rfl, rfl, rfl⟩
        · rfl
      · exact absurd hrr.symm (h1 x)

/-- The bytes that leave a successful `coap2oscore`, as seen by the receiver's parser: the protected
packet, and an OSCORE option with the chosen PIV, KID and KID context. -/
theorem ProtOk.parsed {cfg C nvmW p cap w b w' v} (h : ProtOk cfg C nvmW p cap w b w' v)
    (hcfg : cfg.maxCoapOptions ≤ 260) (hb : b.length < 65536)
    (hcount : (outerOpts p.opts).length ≤ 18) (hno : ∀ o ∈ p.opts, o.num ≠ optOSCORE) :
    ∃ t o, coapParse b = .ok (oscorePkgGenerate p (redelta 0 (outerOpts p.opts)) v.ct v.opt, t) ∧
      oscoreOptionParser t = .ok o ∧ o.piv.read = .ok v.piv ∧ o.kid.read = .ok v.kid ∧
      o.kidCtx.read = .ok v.kctx ∧ o.piv.len = v.piv.length ∧ o.kid.len = v.kid.length := by
  have hu : ∀ o ∈ redelta 0 (outerOpts p.opts), o.num ≤ 39 := redelta_outer_le
  have hlens := serialize_lens h.out hcfg
  have hopts := oscorePkg_opts (p := p) (ct := v.ct) (v := v.opt) hu
  obtain ⟨hbe, _, hbl⟩ := coapSerialize_ok.1 h.out
  have hlen : ∀ o ∈ redelta 0 (outerOpts p.opts), o.len < 256 := by
    intro o ho
    have hm : o ∈ protectedOpts (redelta 0 (outerOpts p.opts)) v.opt := mem_protectedOpts.2 (Or.inl ho)
    have := len_le_optBytesLen hm
    rw [hopts, optBytesLen_redelta] at hbl
    omega
  have hv : v.opt.length < 256 := by
    have hm : (⟨0, v.opt, optOSCORE⟩ : Opt) ∈ protectedOpts (redelta 0 (outerOpts p.opts)) v.opt :=
      mem_protectedOpts.2 (Or.inr rfl)
    have := len_le_optBytesLen hm
    rw [hopts, optBytesLen_redelta] at hbl
    simp only [Opt.len] at this
    omega
  have hok := oscorePkg_ok (ct := v.ct) (v := v.opt) h.range hu
    (by rw [redelta_length]; exact hcount) hlen hv
  have hpar := parse_encPkt hok (by rw [← hbe]; exact hb)
  rw [← hbe] at hpar
  rw [hopts] at hpar
  obtain ⟨rest, hrest⟩ := outer_option_parse
    (tail := payloadTail (oscorePkgGenerate p (redelta 0 (outerOpts p.opts)) v.ct v.opt))
    (v := v.opt) (redelta_outer_noOscore hno)
  have hpivlen : v.piv.length ≤ 5 := by
    cases hn : v.new with
    | true => exact (ssn2piv_minimal (h.ifNew hn).1).2.2
    | false => rw [(h.ifReuse hn).1]; simp
  obtain ⟨o, ho, h1, h2, h3, h4, h5⟩ := C19_roundtrip v.piv v.kctx v.kid v.opt rest hpivlen h.opt
  refine ⟨_, o, hpar, by rw [hrest]; exact ho, h1, h3, h2, h4, h5⟩

end Verif
