import Verif.Spec.Checked
import Verif.Spec.OscoreCborSpec
import Verif.Lemmas.CborLemmas
import Verif.Lemmas.PivNonceLemmas
import Verif.Lemmas.UnprotectLemmas
/-
What `oscore2coap` hands to the AEAD is what Spec/Checked.lean says.
-/
namespace Verif.Rfc8613

/-- RFC nonce = library nonce -/
theorem nonce_eq {id piv iv n : Bytes} (hiv : iv.length = 13) (h : createNonce id piv iv = .ok n) :
    n = nonce id piv iv := by
  obtain ⟨h1, h2, h3, rfl⟩ := createNonce_ok.1 h
  have key : ∀ (a b : Bytes), a.length = b.length → xorWith a b = List.zipWith (· ^^^ ·) a b := by
    intro a
    induction a with
    | nil => intro b hb; cases b with
      | nil => rfl
      | cons => cases hb
    | cons x a ih =>
      intro b hb
      cases b with
      | nil => cases hb
      | cons y b =>
        simp only [List.length_cons, Nat.add_right_cancel_iff] at hb
        simp only [xorWith, List.zipWith_cons_cons, ih b hb]
  rw [key _ _ (by simp; omega)]
  unfold nonce padTo
  simp [byte]

end Verif.Rfc8613

namespace Verif
open Cbor

theorem createAad_ok {kid piv a : Bytes} : createAad kid piv = .ok a ↔
    a = enc (aadArray kid piv) ∧ (enc (aadArray kid piv)).length ≤ 30 := by
  have : (cborArr 5 ++ cborUint 1 ++ cborArr 1 ++ cborInt 10 ++ cborBstr kid ++ cborBstr piv ++
      cborBstr []) = enc (aadArray kid piv) := by
    simp only [cborUint_eq, cborInt_eq, cborBstr_eq, aadArray, cborArr, cborHead_eq]
    simp only [enc, encList, List.append_assoc, List.append_nil]
    rfl
  unfold createAad
  rw [this]; exact cborOut_ok

theorem aadArray_length {kid piv : Bytes} (hk : kid.length < 24) (hp : piv.length < 24) :
    (enc (aadArray kid piv)).length = 7 + kid.length + piv.length := by
  have h10 : Item.int 10 = .uint 10 := rfl
  simp only [aadArray, h10, enc, encList, List.length_append, head_length, List.length_cons,
    List.length_nil, hk, hp]
  simp; omega

theorem encStructure_ok {aad a : Bytes} : encStructure aad = .ok a ↔
    a = enc (.arr [.tstr encrypt0, .bstr [], .bstr aad]) ∧ aad.length ≤ 14 := by
  have h1 : (cborArr 3 ++ cborTstr strEncrypt0 ++ cborBstr [] ++ cborBstr aad) =
      enc (.arr [.tstr encrypt0, .bstr [], .bstr aad]) := by
    have : strEncrypt0 = encrypt0 := by decide +kernel
    simp only [this, cborTstr_eq, cborBstr_eq, cborArr, cborHead_eq]
    simp only [enc, encList, List.append_assoc, List.append_nil]
    rfl
  unfold encStructure
  rw [h1]
  rw [R.bind_eq_ok]
  simp only [checkBufferSize_ok, cborOut_ok]
  have hl : encrypt0.length = 8 := by decide +kernel
  constructor
  · rintro ⟨_, h, rfl, _⟩; exact ⟨rfl, by omega⟩
  · rintro ⟨rfl, h⟩
    refine ⟨(), by omega, rfl, ?_⟩
    simp only [enc, encList, List.length_append, head_length, List.length_cons, List.length_nil, hl]
    simp; split <;> omega

/-- **C25** The AEAD input is the RFC 8613 encoding of (version 1, algorithm 10, KID, PIV). -/
theorem C25_aad_rfc8613 {kid piv aad a : Bytes} (h : createAad kid piv = .ok aad)
    (h' : encStructure aad = .ok a) :
    aad = enc (aadArray kid piv) ∧ a = enc (oscoreEncStructure kid piv) := by
  obtain ⟨rfl, _⟩ := createAad_ok.1 h
  obtain ⟨rfl, _⟩ := encStructure_ok.1 h'
  exact ⟨rfl, rfl⟩

theorem msgType_request {p : Pkt} (h : isRequest p = true) :
    msgType p ≠ .response ∧ msgType p ≠ .notification := by
  unfold msgType
  rw [h]
  cases getObserveValue p.opts with
  | none => simp
  | some v =>
    match v with
    | [] => simp
    | [b] => simp only; split
             · simp
             · split <;> simp
    | _ :: _ :: _ => simp

theorem msgType_response {p : Pkt} (h : isRequest p = false) :
    msgType p = .response ∨ msgType p = .notification := by
  unfold msgType
  rw [h]
  cases getObserveValue p.opts <;> simp

theorem findTok_get {t : Table} {token : Bytes} (h : t.findTok token < t.length) :
    ∃ r, t[t.findTok token]? = some (some r) ∧ r.token = token := by
  have hp := List.findIdx_getElem (w := h) (p := fun r : Option Rec => match r with
    | none => false
    | some r => r.token == token)
  have he : t[t.findTok token]? = some t[t.findTok token] := List.getElem?_eq_getElem h
  cases hx : t[t.findTok token] with
  | none =>
    have hx' : t[List.findIdx (fun r : Option Rec => match r with
      | none => false
      | some r => r.token == token) t] = none := hx
    rw [hx'] at hp; cases hp
  | some r =>
    have hx' : t[List.findIdx (fun r : Option Rec => match r with
      | none => false
      | some r => r.token == token) t] = some r := hx
    rw [hx'] at hp
    exact ⟨r, by rw [he, hx], by simpa using hp⟩

theorem mem_iff_get {t : Table} {x : Option Rec} : x ∈ t ↔ ∃ i : Nat, t[i]? = some x := List.mem_iff_getElem?

theorem get_outstanding {t : Table} {token : Bytes} {r : Rec} (h : t.get token = .ok r) :
    some r ∈ t ∧ r.token = token := by
  unfold Table.get at h
  split at h
  · cases h
  · split at h
    · rename_i s hs
      obtain rfl := R.ok.inj h
      have hlt : t.findTok token < t.length := by
        by_cases hh : t.findTok token < t.length
        · exact hh
        · rw [List.getElem?_eq_none (by omega)] at hs; cases hs
      obtain ⟨s', hs', hst⟩ := findTok_get hlt
      rw [hs] at hs'
      simp only [Option.some.injEq] at hs'
      subst hs'
      exact ⟨mem_iff_get.2 ⟨_, hs⟩, hst⟩
    · cases h

theorem kidMatches_ok {c : Ctx} {o : OscOpt} (h : kidMatches c o = .ok true) : o.kid.read = .ok c.recipientId := by
  unfold kidMatches at h
  split at h
  · cases h
  · obtain ⟨k, hk, h⟩ := R.bind_eq_ok.1 h
    simp only [R.pure_eq, R.ok.injEq] at h
    rw [hk, arrayEquals_iff.1 h]

theorem read_length {f : Fld} {x : Bytes} (h : f.read = .ok x) : x.length = f.len := by
  unfold Fld.read at h
  split at h
  · rw [← R.ok.inj h, List.length_take]; omega
  · cases h

theorem oscOpt_read {o : OscOpt} {piv kid : Bytes} (h : o.read = .ok (piv, kid)) : o.piv.read = .ok piv ∧ o.kid.read = .ok kid := by
  unfold OscOpt.read at h
  obtain ⟨a, h1, h⟩ := R.bind_eq_ok.1 h
  obtain ⟨b, h2, h⟩ := R.bind_eq_ok.1 h
  simp only [R.pure_eq, R.ok.injEq, Prod.mk.injEq] at h
  rw [← h.1, ← h.2]
  exact ⟨h1, h2⟩

theorem coseDecrypt_ok {C : Crypto} {ct n kid piv x key pt : Bytes} (ha : createAad kid piv = .ok x)
    (h : coseDecrypt C ct n x key = .ok pt) : C.aeadDec key n (Rfc8613.aad kid piv) 8 ct = some pt := by
  unfold coseDecrypt at h
  obtain ⟨a, h1, h⟩ := R.bind_eq_ok.1 h
  rw [(C25_aad_rfc8613 ha h1).2] at h
  unfold ofLib at h
  unfold Rfc8613.aad
  cases hx : C.aeadDec key n (enc (oscoreEncStructure kid piv)) tagLen ct with
  | none => rw [hx] at h; cases h
  | some q => rw [hx] at h; rw [← R.ok.inj h]; exact hx

/-- the inputs of one decryption -/
theorem checked {C : Crypto} {c : Ctx} {inp : Bytes} {p : Pkt} {t : List (Opt × Bytes)} {o : OscOpt} {opt : Option OscOpt}
    {rp rk nonce x pt : Bytes} (hp : coapParse inp = .ok (p, t)) (ho : oscoreOptionParser t = .ok o)
    (hreq : isRequest p = true → opt = some o ∧ kidMatches c o = .ok true)
    (hrsp : isRequest p = false → opt = if o.piv.len ≠ 0 then some o else none)
    (hread : readWrapper c.inter (msgType p) p.token (decPivKid opt) = .ok (rp, rk)) (hnonce : decNonce c opt = .ok nonce)
    (haad : createAad rk rp = .ok x) (hpt : coseDecrypt C p.payload nonce x c.recipientKey = .ok pt) :
    Checked c inp nonce (Rfc8613.aad rk rp) p.payload ∧
      C.aeadDec c.recipientKey nonce (Rfc8613.aad rk rp) 8 p.payload = some pt := by
  refine ⟨?_, coseDecrypt_ok haad hpt⟩
  have nn : ∀ {o}, decNonce c (some o) = .ok nonce → ∃ piv kid, o.read = .ok (piv, kid) ∧ IsNonce c kid piv nonce := by
    intro o h
    unfold decNonce at h
    obtain ⟨⟨piv, kid⟩, h1, h⟩ := R.bind_eq_ok.1 h
    exact ⟨piv, kid, h1, fun hiv => Rfc8613.nonce_eq hiv h⟩
  cases hr : isRequest p with
  | true =>
    obtain ⟨rfl, hk⟩ := hreq hr
    obtain ⟨piv, kid, h1, h2⟩ := nn hnonce
    have hk' := (oscOpt_read h1).2
    rw [kidMatches_ok hk] at hk'
    cases hk'
    unfold readWrapper at hread
    obtain ⟨m1, m2⟩ := msgType_request hr
    rw [if_neg (fun h => h.elim m1 m2)] at hread
    unfold decPivKid at hread
    dsimp only at hread
    rw [h1] at hread
    simp only [R.ok.injEq, Prod.mk.injEq] at hread
    obtain ⟨rfl, rfl⟩ := hread
    exact .request ⟨t, o, hp, ho, h1⟩ hr h2
  | false =>
    have hopt := hrsp hr
    unfold readWrapper at hread
    rw [if_pos (msgType_response hr)] at hread
    obtain ⟨r, h1, h⟩ := R.bind_eq_ok.1 hread
    simp only [R.pure_eq, R.ok.injEq, Prod.mk.injEq] at h
    obtain ⟨rfl, rfl⟩ := h
    obtain ⟨h2, h3⟩ := get_outstanding h1
    by_cases hl : o.piv.len = 0
    · rw [if_neg (by omega)] at hopt
      subst hopt
      have : nonce = c.nonce := by unfold decNonce at hnonce; exact (R.ok.inj hnonce).symm
      subst this
      exact .samePiv hp ho hl hr h2 h3
    · rw [if_pos hl] at hopt
      subst hopt
      obtain ⟨piv, kid, g1, g2⟩ := nn hnonce
      refine .ownPiv ⟨t, o, hp, ho, g1⟩ hr ?_ h2 h3 g2
      rintro rfl
      exact hl (by have := read_length (oscOpt_read g1).1; simpa using this.symm)

/-- the same for `DecEffect` -/
theorem DecEffect.checked {cfg : Cfg} {C : Crypto} {c c' : Ctx} {inp : Bytes} {p : Pkt} {t : List (Opt × Bytes)} {o : OscOpt}
    {opt : Option OscOpt} {r : R (Pkt × Bytes)} (hp : coapParse inp = .ok (p, t)) (ho : oscoreOptionParser t = .ok o)
    (hreq : isRequest p = true → opt = some o ∧ kidMatches c o = .ok true)
    (hrsp : isRequest p = false → opt = if o.piv.len ≠ 0 then some o else none) (hd : DecEffect cfg C opt p c r c') :
    ((∀ x, r ≠ .ok x) ∧ c' = c) ∨ ∃ pt, Authentic C c inp pt ∧ ∀ out pt', r = .ok (out, pt') → pt' = pt := by
  cases hd with
  | unchanged hr => exact .inl ⟨hr, rfl⟩
  | @auth rp rk nonce x pt t' hread hnonce haad hpt hres =>
    obtain ⟨h1, h2⟩ := Verif.checked hp ho hreq hrsp hread hnonce haad hpt
    refine .inr ⟨pt, ⟨_, _, _, h1, h2⟩, ?_⟩
    rintro out pt' rfl
    rcases hres with ⟨out', uri, h3, -⟩ | ⟨h3, -⟩
    · simp only [R.ok.injEq, Prod.mk.injEq] at h3
      exact h3.2
    · exact absurd rfl (h3 _)

/-- Either `oscore2coap` fails and changes nothing, or the AEAD accepts the packet. -/
theorem authentic_or_unchanged (cfg : Cfg) (C : Crypto) (inp : Bytes) (cap : Nat) (c : Ctx) :
    ((∀ out, (oscore2coap cfg C inp cap c).1 ≠ .ok out) ∧ (oscore2coap cfg C inp cap c).2 = c) ∨ ∃ pt, Authentic C c inp pt := by
  have h := oscore2coap_effect cfg C inp cap c
  generalize (oscore2coap cfg C inp cap c).1 = r at h
  generalize (oscore2coap cfg C inp cap c).2 = c' at h
  have nf : ∀ {b : Bool}, b = true → b = false → False := fun h1 h2 => by rw [h1] at h2; cases h2
  cases h with
  | unchanged hr => exact .inl ⟨hr, rfl⟩
  | reqFail _ hp ho hq hk _ hdec _ hr =>
    rcases hdec.checked hp ho (fun _ => ⟨rfl, hk⟩) (fun h => (nf hq h).elim) with ⟨_, h2⟩ | ⟨pt, h2, _⟩
    · exact .inl ⟨hr, h2⟩
    · exact .inr ⟨pt, h2⟩
  | reqOk _ hp ho hq hk _ hdec ha =>
    rcases hdec.checked hp ho (fun _ => ⟨rfl, hk⟩) (fun h => (nf hq h).elim) with ⟨h1, _⟩ | ⟨pt, h2, _⟩
    · exact absurd rfl (h1 _)
    · exact .inr ⟨pt, h2⟩
  | rspFail _ hp ho hq hopt hdec _ hr =>
    rcases hdec.checked hp ho (fun h => (nf h hq).elim) (fun _ => hopt) with ⟨_, h2⟩ | ⟨pt, h2, _⟩
    · exact .inl ⟨hr, h2⟩
    · exact .inr ⟨pt, h2⟩
  | notifOk _ hp ho hq _ hl _ _ hdec =>
    rcases hdec.checked hp ho (fun h => (nf h hq).elim) (fun _ => by rw [if_pos hl]) with ⟨h1, _⟩ | ⟨pt, h2, _⟩
    · exact absurd rfl (h1 _)
    · exact .inr ⟨pt, h2⟩
  | rspOk _ hp ho hq _ hopt hdec =>
    rcases hdec.checked hp ho (fun h => (nf h hq).elim) (fun _ => hopt) with ⟨h1, _⟩ | ⟨pt, h2, _⟩
    · exact absurd rfl (h1 _)
    · exact .inr ⟨pt, h2⟩

end Verif
