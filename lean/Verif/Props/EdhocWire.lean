import Verif.Lemmas.EdhocGrammarLemmas
import Verif.Props.EdhocSchedule
/-
C63: the messages EDHOC accepts are exactly those of the grammar of RFC 9528 (as in /repo/cddl), followed by
anything.
-/
namespace Verif.Edhoc
open Verif Verif.Cbor Verif.EdhocGrammar

/-! ### message_1 -/

/-- integers are kept modulo 256 -/
def low8 (i : Int) : UInt8 := byte (i % 256).toNat

/-- the suites as the responder keeps them -/
def KeptSuites (cap : Nat) (o : Bytes) : List Int ⊕ Int → Prop
  | .inr i => o = [low8 i]
  | .inl l => l.length ≤ cap ∧ o = l.map low8

/-- C_I as the responder keeps it -/
def KeptCI (cap : Nat) (o : Bytes) : Int ⊕ Bytes → Prop
  | .inl i => o = [low8 i]
  | .inr b => b.length ≤ cap ∧ o = b

/-- EAD_1 as the responder keeps it; `before` is the array before -/
def KeptEad (before o : Bytes) : Option Bytes → Prop
  | none => o = before
  | some e => e.length ≤ before.length ∧ o = e

theorem suitesOf_iff {cfg : ECfg} {su : List Int ⊕ Int} (h : SuitesOk su) {o : Bytes} :
    suitesOf cfg su = .ok o ↔ KeptSuites cfg.suitesISize o su := by
  cases su with
  | inr i => simp only [suitesOf, KeptSuites, R.ok.injEq]; exact eq_comm
  | inl l =>
    simp only [suitesOf, KeptSuites]
    simp only [SuitesOk] at h
    rw [if_neg (by omega)]
    split
    · simp only [reduceCtorEq, false_iff]; omega
    · simp only [R.ok.injEq]
      constructor
      · rintro rfl; exact ⟨by omega, rfl⟩
      · rintro ⟨-, rfl⟩; rfl

theorem cIOf_iff {cap : Nat} {cI : Int ⊕ Bytes} {o : Bytes} : cIOf cI cap = .ok o ↔ KeptCI cap o cI := by
  cases cI with
  | inl i => simp only [cIOf, KeptCI, R.ok.injEq]; exact eq_comm
  | inr b => simp only [cIOf, KeptCI, memcpyS_ok]; exact and_comm

theorem ead1Of_iff {before : Bytes} {e : Option Bytes} {o : Bytes} : ead1Of e before = .ok o ↔ KeptEad before o e := by
  cases e with
  | none => simp only [ead1Of, KeptEad, R.ok.injEq]; exact eq_comm
  | some b => simp only [ead1Of, KeptEad, memcpyS_ok]; exact and_comm

theorem memcpyS_nub {a : Nat} {x : Bytes} : memcpyS a x ≠ .ub := by
  unfold memcpyS checkBufferSize
  split
  · intro h; cases h
  · split <;> intro h <;> cases h

theorem bind_nub {α β : Type} {x : R α} {f : α → R β} (hx : x ≠ .ub) (hf : ∀ a, f a ≠ .ub) : (x >>= f) ≠ .ub := by
  cases x with
  | ok a => exact hf a
  | err e => intro h; cases h
  | ub => exact absurd rfl hx

theorem msg1Parse_nub {cfg : ECfg} {b before : Bytes} {cap : Nat} : msg1Parse cfg b cap before ≠ .ub := by
  unfold msg1Parse
  split
  · intro h; cases h
  · split
    · intro h; cases h
    · refine bind_nub ?_ fun _ => bind_nub memcpyS_nub fun _ => bind_nub ?_ fun _ => bind_nub ?_ fun _ => ?_
      · unfold suitesOf
        split
        · intro h; cases h
        · split
          · intro h; cases h
          · split <;> intro h <;> cases h
      · unfold cIOf
        split
        · intro h; cases h
        · exact memcpyS_nub
      · unfold ead1Of
        split
        · exact memcpyS_nub
        · intro h; cases h
      · intro h; cases h

/-- C63: message_1 is accepted exactly if it is in the grammar (then anything may follow), METHOD is 0 to 3 and
the fields fit their buffers, and then the fields are those of the message. -/
theorem C63_message_1 {cfg : ECfg} {b before : Bytes} {cICap : Nat} {p : Parsed1} :
    msg1Parse cfg b cICap before = .ok p ↔
      ∃ su cI ead, Message1 cfg.strictCbor p.method su p.gX cI ead b ∧ (0 ≤ p.method ∧ p.method ≤ 3) ∧ p.gX.length ≤ 32 ∧
        KeptSuites cfg.suitesISize p.suites su ∧ KeptCI cICap p.cI cI ∧ KeptEad before p.ead ead := by
  unfold msg1Parse
  constructor
  · intro h
    split at h
    · cases h
    · rename_i m hm
      split at h
      · cases h
      · rename_i hmeth
        obtain ⟨s, h1, h⟩ := R.bind_eq_ok.1 h
        obtain ⟨g, h2, h⟩ := R.bind_eq_ok.1 h
        obtain ⟨ci, h3, h⟩ := R.bind_eq_ok.1 h
        obtain ⟨e, h4, h⟩ := R.bind_eq_ok.1 h
        simp only [R.pure_eq, R.ok.injEq] at h
        subst h
        have hg := decMsg1_iff.1 hm
        obtain ⟨rfl, hgl⟩ := memcpyS_ok.1 h2
        exact ⟨m.suites, m.cI, m.ead1, hg, by simp only; omega, hgl, (suitesOf_iff hg.2.1).1 h1, cIOf_iff.1 h3, ead1Of_iff.1 h4⟩
  · rintro ⟨su, cI, ead, hg, hmeth, hgx, k1, k2, k3⟩
    rw [(decMsg1_iff (m := ⟨p.method, su, p.gX, cI, ead⟩)).2 hg]
    simp only
    rw [if_neg (by omega), (suitesOf_iff hg.2.1).2 k1, R.ok_bind, memcpyS_ok.2 ⟨rfl, hgx⟩, R.ok_bind,
      cIOf_iff.2 k2, R.ok_bind, ead1Of_iff.2 k3, R.ok_bind]
    rfl

/-- C63: a responder answers nothing but the grammar: if it receives anything that is not (the beginning of) a
message_1, it sends nothing and returns an error. -/
theorem C63_responder {cfg : ECfg} {C : ECrypto} {c : RCtx} {creds : List Cred} {cICap L : Nat} {n : Net} {m1 : Bytes}
    (hr : n.rxq.head? = some (.inr m1))
    (h : (responderRun cfg C c creds cICap L n).2.sent ≠ n.sent ∨ (responderRun cfg C c creds cICap L n).1.isOk = true) :
    ∃ method su gX cI ead, Message1 cfg.strictCbor method su gX cI ead m1 ∧ 0 ≤ method ∧ method ≤ 3 ∧ gX.length ≤ 32 := by
  cases hp : msg1Parse cfg m1 cICap (List.replicate cfg.eadSize 0) with
  | ok p =>
    obtain ⟨su, cI, ead, h1, h2, h3, -⟩ := C63_message_1.1 hp
    exact ⟨_, su, _, cI, ead, h1, h2.1, h2.2, h3⟩
  | err e =>
    exfalso
    have h2 : msg2Gen cfg C c m1 cICap (List.replicate cfg.eadSize 0) = .err e := by
      unfold msg2Gen; rw [hp]; rfl
    have hc := C44_responder cfg C c creds cICap L n
    cases hq : n.rxq with
    | nil => rw [hq] at hr; cases hr
    | cons a q =>
      rw [hq] at hr
      simp only [List.head?_cons, Option.some.injEq] at hr
      subst hr
      by_cases hl : m1.length ≤ cfg.msgMaxSize
      · have hrx : netRx cfg.msgMaxSize n = (.ok m1, { n with rxq := q }) := by
          unfold netRx; rw [hq]; simp only; rw [if_pos hl]
        have := (hc.2 _ _ hrx).1 e h2
        rw [this] at h
        rcases h with h | h
        · exact h rfl
        · cases h
      · obtain ⟨e', n1, hrx, hs⟩ : ∃ e' n1, netRx cfg.msgMaxSize n = (.err e', n1) ∧ n1.sent = n.sent := by
          unfold netRx; rw [hq]; simp only; rw [if_neg hl]; exact ⟨_, _, rfl, rfl⟩
        rw [hc.1 _ _ hrx] at h
        rcases h with h | h
        · exact h hs
        · cases h
  | ub => exact absurd hp msg1Parse_nub

/-! ### the other messages -/

theorem decodeBstr_iff {cfg : ECfg} {b v : Bytes} {cap : Nat} :
    decodeBstr cfg b cap = .ok v ↔ OneBstr cfg.strictCbor v b ∧ v.length ≤ cap := by
  unfold decodeBstr OneBstr
  cases hz : zBstr cfg.strictCbor b with
  | none =>
    simp only [reduceCtorEq, false_iff]
    rintro ⟨⟨x, t, hx, hb⟩, -⟩
    rw [zBstr_iff.2 ⟨x, hx, hb⟩] at hz; cases hz
  | some p =>
    obtain ⟨v', t'⟩ := p
    obtain ⟨x', hx', hb'⟩ := zBstr_iff.1 hz
    simp only [memcpyS_ok]
    constructor
    · rintro ⟨rfl, h⟩; exact ⟨⟨x', t', hx', hb'⟩, h⟩
    · rintro ⟨⟨x, t, hx, hb⟩, h⟩
      rw [zBstr_iff.2 ⟨x, hx, hb⟩] at hz
      simp only [Option.some.injEq, Prod.mk.injEq] at hz
      exact ⟨hz.1, hz.1 ▸ h⟩

/-- C63: message_2 is split exactly if it is one byte string (then anything may follow) of G_Y, 32 bytes, and
ciphertext_2, and fits the buffers. -/
theorem C63_message_2 {cfg : ECfg} {b gY c2 : Bytes} {cap : Nat} :
    msg2Parse cfg b cap = .ok (gY, c2) ↔
      OneBstr cfg.strictCbor (gY ++ c2) b ∧ gY.length = 32 ∧ c2.length ≤ cap ∧ (gY ++ c2).length ≤ cfg.gYCiphertext2 := by
  unfold msg2Parse
  constructor
  · intro h
    obtain ⟨v, h1, h⟩ := R.bind_eq_ok.1 h
    obtain ⟨h2, h3⟩ := decodeBstr_iff.1 h1
    split at h
    · cases h
    · obtain ⟨c, h4, h⟩ := R.bind_eq_ok.1 h
      simp only [R.pure_eq, R.ok.injEq, Prod.mk.injEq] at h
      obtain ⟨rfl, rfl⟩ := h
      obtain ⟨rfl, h5⟩ := memcpyS_ok.1 h4
      rw [List.take_append_drop]
      exact ⟨h2, by rw [List.length_take]; omega, h5, h3⟩
  · rintro ⟨h1, h2, h3, h4⟩
    rw [decodeBstr_iff.2 ⟨h1, h4⟩, R.ok_bind, if_neg (by rw [List.length_append]; omega),
      List.drop_left' h2, List.take_left' h2, memcpyS_ok.2 ⟨rfl, h3⟩]
    rfl

/-- ID_CRED_x as the library keeps it, for the forms it understands: an integer stands for `{4: kid}` (RFC 9528,
3.5.3.2), a map must have an x5chain or an x5t, of which the latter is kept -/
def KeptId : IdField → Bytes → Prop
  | .int k, o => o = enc (.map [.uint 4, .int k])
  | .bstr _, _ => False
  | .map m, o =>
    match m.x5t, m.x5chain with
    | some (.inl a, h), _ => o = enc (.map [.uint 34, .arr [.int a, .bstr h]])
    | some (.inr _, _), _ => False
    | none, some v => o = enc (.map [.uint 33, .bstr v])
    | none, none => False

theorem idCredOf_kept {f : IdField} {cap : Nat} {o : Bytes} (h : idCredOf f cap = .ok o) : KeptId f o ∧ o.length ≤ cap := by
  have hc : ∀ {v : Bytes} {cap : Nat} {o : Bytes}, idCredX5chain v cap = .ok o →
      o = enc (.map [.uint 33, .bstr v]) ∧ o.length ≤ cap := by
    intro v cap o h
    unfold idCredX5chain at h
    obtain ⟨h1, h2⟩ := cborOut_ok.1 h
    refine ⟨?_, h1 ▸ h2⟩
    rw [h1, cborUint_eq, cborBstr_eq, ← cborMap_eq]; simp [encList]
  have ht : ∀ {a : Int ⊕ Bytes} {v : Bytes} {cap : Nat} {o : Bytes}, idCredX5t a v cap = .ok o →
      ∃ i, a = .inl i ∧ o = enc (.map [.uint 34, .arr [.int i, .bstr v]]) ∧ o.length ≤ cap := by
    intro a v cap o h
    unfold idCredX5t at h
    split at h
    · rename_i i
      obtain ⟨h1, h2⟩ := cborOut_ok.1 h
      refine ⟨i, rfl, ?_, h1 ▸ h2⟩
      rw [h1, cborUint_eq, cborBstr_eq, cborInt_eq, ← cborMap_eq]
      simp only [encList, ← cborArr_eq, List.append_assoc, List.append_nil, List.length_cons, List.length_nil]
    · cases h
  unfold idCredOf at h
  split at h
  · unfold idCredKid at h
    obtain ⟨h1, h2⟩ := cborOut_ok.1 h
    refine ⟨?_, h1 ▸ h2⟩
    simp only [KeptId]
    rw [h1, cborUint_eq, cborInt_eq, ← cborMap_eq]; simp [encList]
  · cases h
  · rename_i m
    split at h
    · cases h
    · rename_i v e1 e2
      simp only [KeptId, e1, e2]
      exact hc h
    · rename_i a hs e1 e2
      obtain ⟨i, rfl, h1, h2⟩ := ht h
      simp only [KeptId, e2]
      exact ⟨h1, h2⟩
    · rename_i v a hs e1 e2
      obtain ⟨x, h0, h⟩ := R.bind_eq_ok.1 h
      obtain ⟨i, rfl, h1, h2⟩ := ht h
      simp only [KeptId, e2]
      exact ⟨h1, by have := (hc h0).2; omega⟩

/-- C_R as the initiator keeps it: the bytes of the string, or the encoding of the integer -/
def KeptCR (o : Bytes) : Int ⊕ Bytes → Prop
  | .inl i => o = enc (.int i)
  | .inr b => o = b

/-- EAD_x as it is given to the application -/
def KeptEadX (o : Bytes) : Option Bytes → Prop
  | none => o = []
  | some e => o = e

theorem splitFields_kept {p : Ptxt3} {idCap eadCap : Nat} {sp : Split} (h : splitFields p idCap eadCap = .ok sp) :
    KeptId p.id sp.idCred ∧ sp.sigOrMac = p.sigOrMac ∧ KeptEadX sp.ead p.ead ∧
      sp.idCred.length ≤ idCap ∧ sp.sigOrMac.length ≤ 64 ∧ sp.ead.length ≤ eadCap := by
  unfold splitFields at h
  obtain ⟨id, h1, h⟩ := R.bind_eq_ok.1 h
  obtain ⟨sm, h2, h⟩ := R.bind_eq_ok.1 h
  obtain ⟨e, h3, h⟩ := R.bind_eq_ok.1 h
  simp only [R.pure_eq, R.ok.injEq] at h
  subst h
  obtain ⟨a1, a2⟩ := idCredOf_kept h1
  obtain ⟨b1, b2⟩ := memcpyS_ok.1 h2
  have : KeptEadX e p.ead ∧ e.length ≤ eadCap := by
    unfold eadOf at h3
    split at h3
    · rename_i v hv
      obtain ⟨c1, c2⟩ := memcpyS_ok.1 h3
      exact ⟨by rw [hv]; exact c1, by rw [c1]; exact c2⟩
    · rename_i hv
      simp only [R.ok.injEq] at h3
      subst h3
      exact ⟨by rw [hv]; exact rfl, by simp⟩
  exact ⟨a1, b1, this.1, a2, by rw [b1]; exact b2, this.2⟩

/-- C63: if plaintext_2 is accepted, it is in the grammar (then anything may follow), and the fields the
initiator goes on with are those of the plaintext. -/
theorem C63_plaintext_2 {cfg : ECfg} {b cR : Bytes} {crCap idCap eadCap : Nat} {sp : Split}
    (h : plaintext2Split cfg b crCap idCap eadCap = .ok (cR, sp)) :
    ∃ c f ead, Plaintext2 cfg.strictCbor c (idFieldItem f) sp.sigOrMac ead b ∧ KeptCR cR c ∧ KeptId f sp.idCred ∧
      KeptEadX sp.ead ead ∧ cR.length ≤ crCap ∧ sp.idCred.length ≤ idCap ∧ sp.sigOrMac.length ≤ 64 ∧ sp.ead.length ≤ eadCap := by
  unfold plaintext2Split at h
  split at h
  · cases h
  · rename_i c p hd
    obtain ⟨r, h1, h⟩ := R.bind_eq_ok.1 h
    obtain ⟨s, h2, h⟩ := R.bind_eq_ok.1 h
    simp only [R.pure_eq, R.ok.injEq, Prod.mk.injEq] at h
    obtain ⟨rfl, rfl⟩ := h
    obtain ⟨-, hg⟩ := decPtxt2_iff.1 hd
    obtain ⟨k1, k2, k3, k4, k5, k6⟩ := splitFields_kept h2
    rw [← k2] at hg
    refine ⟨c, p.id, p.ead, hg, ?_, k1, k3, crOf_cap h1, k4, k5, k6⟩
    unfold crOf at h1
    split at h1
    · exact (memcpyS_ok.1 h1).1
    · unfold encodeInt at h1
      simp only [KeptCR]
      rw [(cborOut_ok.1 h1).1, cborInt_eq]

/-- C63: the same of plaintext_3 -/
theorem C63_plaintext_3 {cfg : ECfg} {b : Bytes} {idCap eadCap : Nat} {sp : Split}
    (h : plaintext3Split cfg b idCap eadCap = .ok sp) :
    ∃ f ead, Plaintext3 cfg.strictCbor (idFieldItem f) sp.sigOrMac ead b ∧ KeptId f sp.idCred ∧
      KeptEadX sp.ead ead ∧ sp.idCred.length ≤ idCap ∧ sp.sigOrMac.length ≤ 64 ∧ sp.ead.length ≤ eadCap := by
  unfold plaintext3Split at h
  split at h
  · cases h
  · rename_i p hd
    obtain ⟨-, hg⟩ := decPtxt3_iff.1 hd
    obtain ⟨k1, k2, k3, k4, k5, k6⟩ := splitFields_kept h
    rw [← k2] at hg
    exact ⟨p.id, p.ead, hg, k1, k3, k4, k5, k6⟩

/-- room for the identifier; of a map with both a certificate chain and a certificate hash, the hash is written where the
chain was and must not be longer -/
def IdRoom (cap : Nat) (o : Bytes) : IdField → Prop
  | .map m => o.length ≤ cap ∧ ∀ v t, m.x5chain = some v → m.x5t = some t →
      (enc (.map [.uint 33, .bstr v])).length ≤ cap ∧ o.length ≤ (enc (.map [.uint 33, .bstr v])).length
  | _ => o.length ≤ cap

theorem idCredOf_room {f : IdField} {cap : Nat} {o : Bytes} (hk : KeptId f o) (hr : IdRoom cap o f) : idCredOf f cap = .ok o := by
  have hc : ∀ {v : Bytes} {cap : Nat} {o : Bytes}, o = enc (.map [.uint 33, .bstr v]) → o.length ≤ cap →
      idCredX5chain v cap = .ok o := by
    intro v cap o h1 h2
    have e : o = cborMap 1 ++ cborUint 33 ++ cborBstr v := by
      rw [h1, cborUint_eq, cborBstr_eq, ← cborMap_eq]; simp [encList]
    unfold idCredX5chain
    exact cborOut_ok.2 ⟨e, e ▸ h2⟩
  have ht : ∀ {i : Int} {v : Bytes} {cap : Nat} {o : Bytes}, o = enc (.map [.uint 34, .arr [.int i, .bstr v]]) → o.length ≤ cap →
      idCredX5t (.inl i) v cap = .ok o := by
    intro i v cap o h1 h2
    unfold idCredX5t
    have e : o = cborMap 1 ++ cborUint 34 ++ cborArr 2 ++ cborInt i ++ cborBstr v := by
      rw [h1, cborUint_eq, cborBstr_eq, cborInt_eq, ← cborMap_eq]
      simp only [encList, ← cborArr_eq, List.append_assoc, List.append_nil, List.length_cons, List.length_nil]
    exact cborOut_ok.2 ⟨e, e ▸ h2⟩
  cases f with
  | int k =>
    simp only [KeptId] at hk
    have e : o = cborMap 1 ++ cborUint 4 ++ cborInt k := by
      rw [hk, cborUint_eq, cborInt_eq, ← cborMap_eq]; simp [encList]
    unfold idCredOf idCredKid
    exact cborOut_ok.2 ⟨e, e ▸ hr⟩
  | bstr b => exact absurd hk (by simp [KeptId])
  | map m =>
    obtain ⟨r1, r2⟩ := hr
    simp only [KeptId] at hk
    unfold idCredOf
    cases h1 : m.x5t with
    | none =>
      cases h2 : m.x5chain with
      | none => simp only [h1, h2] at hk
      | some v =>
        simp only [h1, h2] at hk
        simp only [h1, h2]
        exact hc hk r1
    | some t =>
      obtain ⟨a, h⟩ := t
      cases a with
      | inr b => simp only [h1] at hk
      | inl i =>
        simp only [h1] at hk
        cases h2 : m.x5chain with
        | none => simp only [h1, h2]; exact ht hk r1
        | some v =>
          obtain ⟨r3, r4⟩ := r2 v _ h2 h1
          simp only [h1, h2]
          rw [hc rfl r3, R.ok_bind]
          exact ht hk r4

theorem splitFields_room {p : Ptxt3} {idCap eadCap : Nat} {sp : Split} (h1 : KeptId p.id sp.idCred) (h2 : sp.sigOrMac = p.sigOrMac)
    (h3 : KeptEadX sp.ead p.ead) (h4 : IdRoom idCap sp.idCred p.id) (h5 : sp.sigOrMac.length ≤ 64) (h6 : sp.ead.length ≤ eadCap) :
    splitFields p idCap eadCap = .ok sp := by
  unfold splitFields
  rw [idCredOf_room h1 h4, R.ok_bind, memcpyS_ok.2 ⟨h2, h2 ▸ h5⟩, R.ok_bind]
  have : eadOf p.ead eadCap = .ok sp.ead := by
    unfold eadOf
    cases he : p.ead with
    | none => rw [he] at h3; simp only [KeptEadX] at h3; rw [h3]
    | some v => rw [he] at h3; simp only [KeptEadX] at h3; exact memcpyS_ok.2 ⟨h3, h3 ▸ h6⟩
  rw [this, R.ok_bind]
  rfl

/-- C63: conversely, every plaintext_2 of the grammar is accepted, whatever follows it, if it identifies the credential by an
integer kid, a certificate chain or a certificate hash (`KeptId`: the other identifiers are not usable, `C68_false_plaintext`)
and the fields fit their buffers; the fields are kept as they are. -/
theorem C63_plaintext_2_complete {cfg : ECfg} {b cR : Bytes} {crCap idCap eadCap : Nat} {sp : Split} {c : Int ⊕ Bytes} {f : IdField}
    {ead : Option Bytes} (hg : Plaintext2 cfg.strictCbor c (idFieldItem f) sp.sigOrMac ead b) (hf : IdFieldOk f)
    (h1 : KeptCR cR c) (h2 : KeptId f sp.idCred) (h3 : KeptEadX sp.ead ead) (c1 : cR.length ≤ crCap)
    (c2 : IdRoom idCap sp.idCred f) (c3 : sp.sigOrMac.length ≤ 64) (c4 : sp.ead.length ≤ eadCap) :
    plaintext2Split cfg b crCap idCap eadCap = .ok (cR, sp) := by
  have hd : decPtxt2 cfg.strictCbor b = some (c, ⟨f, sp.sigOrMac, ead⟩) := decPtxt2_iff.2 ⟨hf, hg⟩
  unfold plaintext2Split
  rw [hd]
  dsimp only
  have hc : crOf c crCap = .ok cR := by
    unfold crOf
    cases c with
    | inl i =>
      simp only [KeptCR] at h1
      dsimp only
      unfold encodeInt
      have e : cR = cborInt i := by rw [h1, cborInt_eq]
      exact cborOut_ok.2 ⟨e, e ▸ c1⟩
    | inr x =>
      simp only [KeptCR] at h1
      exact memcpyS_ok.2 ⟨h1, h1 ▸ c1⟩
  rw [hc, R.ok_bind, splitFields_room h2 rfl h3 c2 c3 c4, R.ok_bind]
  rfl

/-- C63: the same of plaintext_3 -/
theorem C63_plaintext_3_complete {cfg : ECfg} {b : Bytes} {idCap eadCap : Nat} {sp : Split} {f : IdField}
    {ead : Option Bytes} (hg : Plaintext3 cfg.strictCbor (idFieldItem f) sp.sigOrMac ead b) (hf : IdFieldOk f)
    (h2 : KeptId f sp.idCred) (h3 : KeptEadX sp.ead ead)
    (c2 : IdRoom idCap sp.idCred f) (c3 : sp.sigOrMac.length ≤ 64) (c4 : sp.ead.length ≤ eadCap) :
    plaintext3Split cfg b idCap eadCap = .ok sp := by
  have hd : decPtxt3 cfg.strictCbor b = some ⟨f, sp.sigOrMac, ead⟩ := decPtxt3_iff.2 ⟨hf, hg⟩
  unfold plaintext3Split
  rw [hd]
  exact splitFields_room h2 rfl h3 c2 c3 c4

/-- C63: a plaintext_2 or plaintext_3 outside the grammar is refused -/
theorem C63_plaintext_refused {cfg : ECfg} {b : Bytes} {crCap idCap eadCap : Nat} :
    ((¬ ∃ c f sm ead, IdFieldOk f ∧ Plaintext2 cfg.strictCbor c (idFieldItem f) sm ead b) →
      plaintext2Split cfg b crCap idCap eadCap = .err .unexpected_result_from_ext_lib) ∧
    ((¬ ∃ f sm ead, IdFieldOk f ∧ Plaintext3 cfg.strictCbor (idFieldItem f) sm ead b) →
      plaintext3Split cfg b idCap eadCap = .err .unexpected_result_from_ext_lib) := by
  constructor
  · intro h
    unfold plaintext2Split
    cases hd : decPtxt2 cfg.strictCbor b with
    | none => rfl
    | some t =>
      obtain ⟨c, p⟩ := t
      obtain ⟨h1, h2⟩ := decPtxt2_iff.1 hd
      exact absurd ⟨c, p.id, _, _, h1, h2⟩ h
  · intro h
    unfold plaintext3Split
    cases hd : decPtxt3 cfg.strictCbor b with
    | none => rfl
    | some p =>
      obtain ⟨h1, h2⟩ := decPtxt3_iff.1 hd
      exact absurd ⟨p.id, _, _, h1, h2⟩ h

/-! ### canonical encodings -/

theorem head_canonical {m n : Nat} {h : Bytes} (hh : IsHead true m n h) : h = head m n := by
  have key : ∀ {k : Nat} {a : Bytes}, a.length = k → a = be k (beVal a) := by
    intro k a hk
    apply beVal_inj
    · rw [be_length, hk]
    · rw [beVal_be, Nat.mod_eq_of_lt]
      have := beVal_lt a
      rwa [hk] at this
  rcases hh with ⟨hn, rfl⟩ | ⟨ai, k, least, a, hw, hk, hv, hs, rfl⟩
  · unfold head; rw [if_pos hn]
  · have hl := hs rfl
    have hlt := beVal_lt a
    have ha := key hk
    rw [hv] at ha hlt
    rw [hk] at hlt
    unfold head
    simp only [widths, List.mem_cons, List.not_mem_nil, or_false, Prod.mk.injEq] at hw
    rcases hw with ⟨rfl, rfl, rfl⟩ | ⟨rfl, rfl, rfl⟩ | ⟨rfl, rfl, rfl⟩ | ⟨rfl, rfl, rfl⟩
    · rw [if_neg (by omega), if_pos (by omega), ← ha]
    · rw [if_neg (by omega), if_neg (by omega), if_pos (by omega), ← ha]
    · rw [if_neg (by omega), if_neg (by omega), if_neg (by omega), if_pos (by omega), ← ha]
    · rw [if_neg (by omega), if_neg (by omega), if_neg (by omega), if_neg (by omega), ← ha]

mutual
/-- a well-formed item with shortest heads is the deterministic encoding -/
theorem item_canonical : ∀ {i : Item} {b : Bytes}, IsItem true i b → b = enc i
  | .uint n, b, h => by simp only [IsItem] at h; rw [head_canonical h, enc]
  | .nint n, b, h => by simp only [IsItem] at h; rw [head_canonical h, enc]
  | .bstr v, b, h => by
    simp only [IsItem] at h; obtain ⟨hd, h1, rfl⟩ := h; rw [head_canonical h1, enc]
  | .tstr v, b, h => by
    simp only [IsItem] at h; obtain ⟨hd, h1, rfl⟩ := h; rw [head_canonical h1, enc]
  | .arr l, b, h => by
    simp only [IsItem] at h; obtain ⟨hd, t, h1, h2, rfl⟩ := h; rw [head_canonical h1, seq_canonical h2, enc]
  | .map l, b, h => by
    simp only [IsItem] at h; obtain ⟨hd, t, h1, h2, rfl⟩ := h; rw [head_canonical h1, seq_canonical h2, enc]
  | .null, b, h => by simp only [IsItem] at h; rw [h, enc]
theorem seq_canonical : ∀ {l : List Item} {b : Bytes}, IsSeq true l b → b = encList l
  | [], b, h => by simp only [IsSeq] at h; rw [h, encList]
  | i :: l, b, h => by
    rw [IsSeq] at h
    obtain ⟨x, y, h1, h2, rfl⟩ := h
    rw [item_canonical h1, seq_canonical h2, encList]
end

/-- C63: built with ZCBOR_CANONICAL, the responder accepts no second encoding: an accepted message_1 begins with
the deterministic encoding of the fields it was taken for. -/
theorem C63_message_1_canonical {cfg : ECfg} (hs : cfg.strictCbor = true) {b before : Bytes} {cICap : Nat} {p : Parsed1}
    (h : msg1Parse cfg b cICap before = .ok p) :
    ∃ su cI, KeptSuites cfg.suitesISize p.suites su ∧ KeptCI cICap p.cI cI ∧
      encList [.int p.method, EdhocGrammar.suites su, .bstr p.gX, bstrInt cI] <+: b := by
  obtain ⟨su, cI, ead, h1, -, -, h2, h3, -⟩ := C63_message_1.1 h
  obtain ⟨-, -, -, w, r, hw, rfl, -⟩ := h1
  rw [hs] at hw
  exact ⟨su, cI, h2, h3, by rw [← seq_canonical hw]; exact List.prefix_append _ _⟩

/-! ### where the code deviates from RFC 9528 -/

/-- C63 is false at the end of the messages: whatever follows a message_1 with EAD_1, or a message_2, 3 or 4, is
ignored; RFC 9528 has nothing after them. -/
theorem C63_false_trailing {cfg : ECfg} {b v before : Bytes} {cICap cap : Nat} {p : Parsed1} {su : List Int ⊕ Int} {cI : Int ⊕ Bytes}
    {e : Bytes} (t : Bytes) :
    (Message1 cfg.strictCbor p.method su p.gX cI (some e) b → msg1Parse cfg b cICap before = .ok p →
      ∃ p', msg1Parse cfg (b ++ t) cICap before = .ok p') ∧
    (decodeBstr cfg b cap = .ok v → decodeBstr cfg (b ++ t) cap = .ok v) := by
  constructor
  · intro hg h
    obtain ⟨su', cI', ead', h1, h2, h3, h4, h5, h6⟩ := C63_message_1.1 h
    have e1 := decMsg1_iff (m := ⟨p.method, su, p.gX, cI, some e⟩) |>.2 hg
    have e2 := decMsg1_iff (m := ⟨p.method, su', p.gX, cI', ead'⟩) |>.2 h1
    rw [e1] at e2
    simp only [Option.some.injEq, Msg1.mk.injEq, true_and] at e2
    obtain ⟨rfl, rfl, rfl⟩ := e2
    refine ⟨p, C63_message_1.2 ⟨su, cI, some e, ?_, h2, h3, h4, h5, h6⟩⟩
    obtain ⟨g1, g2, g3, w, r, g4, rfl, x, u, g5, rfl⟩ := hg
    exact ⟨g1, g2, g3, w, x ++ u ++ t, g4, by simp, x, u ++ t, g5, by simp⟩
  · intro h
    obtain ⟨⟨x, u, h1, rfl⟩, h2⟩ := decodeBstr_iff.1 h
    exact decodeBstr_iff.2 ⟨⟨x, u ++ t, h1, by simp⟩, h2⟩

/-- C63 is false of the suites: an integer that is not a cipher suite, but congruent to one modulo 256, is taken
for it: SUITES_I = 258 selects suite 2. -/
theorem C63_false_suite {cfg : ECfg} {b before : Bytes} {cICap : Nat} {p : Parsed1} {k : Nat} {j : Int} {cI : Int ⊕ Bytes}
    {ead : Option Bytes} (hk : k < 4) (h : msg1Parse cfg b cICap before = .ok p)
    (hg : Message1 cfg.strictCbor p.method (.inr (k + 256 * j)) p.gX cI ead b) : p.suites = [byte k] := by
  obtain ⟨su', cI', ead', h1, h2, h3, h4, h5, h6⟩ := C63_message_1.1 h
  have e1 := decMsg1_iff (m := ⟨p.method, .inr (k + 256 * j), p.gX, cI, ead⟩) |>.2 hg
  have e2 := decMsg1_iff (m := ⟨p.method, su', p.gX, cI', ead'⟩) |>.2 h1
  rw [e1] at e2
  simp only [Option.some.injEq, Msg1.mk.injEq, true_and] at e2
  obtain ⟨rfl, rfl, rfl⟩ := e2
  simp only [KeptSuites] at h4
  rw [h4]
  unfold low8
  congr 2
  omega

/-- C63 is false of key identifiers: a plaintext_2 whose ID_CRED_R is a byte string (RFC 9528, 3.5.3.2) is in the
grammar, but the library reads the string as an integer (undefined behaviour), before anything was authenticated. -/
theorem C63_false_bstr_kid {cfg : ECfg} {b v sm : Bytes} {c : Int ⊕ Bytes} {ead : Option Bytes} {crCap idCap eadCap : Nat}
    (hg : Plaintext2 cfg.strictCbor c (.bstr v) sm ead b) {cR : Bytes} (hc : crOf c crCap = .ok cR) :
    plaintext2Split cfg b crCap idCap eadCap = .ub := by
  unfold plaintext2Split
  rw [(decPtxt2_iff (p := ⟨.bstr v, sm, ead⟩)).2 ⟨trivial, hg⟩]
  simp only
  rw [hc, R.ok_bind]
  rfl

/-! ### concrete messages -/

/-- METHOD 3, SUITES_I [6, 2], a G_X, C_I h'0a0b' and EAD_1 h'ee' -/
def exWire1 : Bytes := encList [.int 3, .arr [.int 6, .int 2], .bstr (List.replicate 32 7), .bstr [10, 11], .bstr [0xee]]
/-- the same with SUITES_I 258, C_I = 5, no EAD_1, in the canonical encoding -/
def exWire258 : Bytes := encList [.int 3, .int 258, .bstr (List.replicate 32 7), .int 5]
/-- a message_2 -/
def exWire2 : Bytes := enc (.bstr (List.replicate 32 9 ++ [1, 2, 3, 4]))
/-- a plaintext_2 with C_R = -1, ID_CRED_R = 5, an 8-byte MAC_2 and EAD_2 -/
def exPtxt2 : Bytes := encList [.int (-1), .int 5, .bstr (List.replicate 8 1), .bstr [1]]
/-- a plaintext_3 with an x5t -/
def exPtxt3 : Bytes := encList [.map [.uint 34, .arr [.int (-15), .bstr (List.replicate 8 3)]], .bstr (List.replicate 64 1)]
/-- a plaintext_2 with a byte-string kid -/
def exPtxtKid : Bytes := encList [.int 0, .bstr [1, 2], .bstr (List.replicate 8 1)]

/-- the grammar has messages with all optional fields, and the parser accepts them -/
example : msg1Parse { eadSize := 4 } exWire1 10 (List.replicate 4 0) =
      .ok ⟨3, [6, 2], List.replicate 32 7, [10, 11], [0xee]⟩ ∧
    ∃ su cI ead, Message1 true 3 su (List.replicate 32 7) cI ead exWire1 ∧ KeptSuites 6 [6, 2] su ∧ KeptCI 10 [10, 11] cI ∧
      KeptEad (List.replicate 4 0) [0xee] ead := by
  have h : msg1Parse { eadSize := 4 } exWire1 10 (List.replicate 4 0) =
      .ok ⟨3, [6, 2], List.replicate 32 7, [10, 11], [0xee]⟩ := by decide +kernel
  obtain ⟨su, cI, ead, h1, -, -, h2, h3, h4⟩ := C63_message_1.1 h
  exact ⟨h, su, cI, ead, h1, h2, h3, h4⟩

/-- SUITES_I = 258 is kept as suite 2: the hypotheses of `C63_false_suite` are met -/
example : ∃ p cI ead, msg1Parse {} exWire258 10 [] = .ok p ∧
    Message1 true p.method (.inr ((2 : Nat) + 256 * 1)) p.gX cI ead exWire258 ∧ p.suites = [2] := by
  have h : msg1Parse {} exWire258 10 [] = .ok ⟨3, [2], List.replicate 32 7, [5], []⟩ := by decide +kernel
  have hd : decMsg1 true exWire258 = some ⟨3, .inr 258, List.replicate 32 7, .inl 5, none⟩ := by decide +kernel
  exact ⟨_, _, _, h, decMsg1_iff.1 hd, rfl⟩

/-- message_1 with EAD_1 meets the hypotheses of `C63_false_trailing` -/
example : ∃ p su cI e, Message1 true p.method su p.gX cI (some e) exWire1 ∧
    msg1Parse { eadSize := 4 } exWire1 10 (List.replicate 4 0) = .ok p := by
  have h : msg1Parse { eadSize := 4 } exWire1 10 (List.replicate 4 0) =
      .ok ⟨3, [6, 2], List.replicate 32 7, [10, 11], [0xee]⟩ := by decide +kernel
  have hd : decMsg1 true exWire1 = some ⟨3, .inl [6, 2], List.replicate 32 7, .inr [10, 11], some [0xee]⟩ := by decide +kernel
  exact ⟨_, _, _, _, decMsg1_iff.1 hd, h⟩

/-- message_2, plaintext_2 and plaintext_3 are accepted -/
example : msg2Parse {} exWire2 64 = .ok (List.replicate 32 9, [1, 2, 3, 4]) ∧
    plaintext2Split { eadSize := 4 } exPtxt2 10 400 4 =
      .ok ([0x20], ⟨enc (.map [.uint 4, .int 5]), List.replicate 8 1, [1]⟩) ∧
    plaintext3Split {} exPtxt3 400 0 =
      .ok ⟨enc (.map [.uint 34, .arr [.int (-15), .bstr (List.replicate 8 3)]]), List.replicate 64 1, []⟩ := by
  decide +kernel

/-- a plaintext_2 with a byte-string kid is in the grammar -/
example : Plaintext2 true (.inl 0) (.bstr [1, 2]) (List.replicate 8 1) none exPtxtKid ∧ crOf (.inl 0) 10 = .ok [0] := by
  have hd : decPtxt2 true exPtxtKid = some (.inl 0, ⟨.bstr [1, 2], List.replicate 8 1, none⟩) := by decide +kernel
  exact ⟨(decPtxt2_iff.1 hd).2, by decide +kernel⟩

/-- `C63_plaintext_2_complete`, `C63_plaintext_3_complete`: the examples above come from the grammar -/
example : plaintext2Split { eadSize := 4 } exPtxt2 10 400 4 =
      .ok ([0x20], ⟨enc (.map [.uint 4, .int 5]), List.replicate 8 1, [1]⟩) ∧
    plaintext3Split {} exPtxt3 400 0 =
      .ok ⟨enc (.map [.uint 34, .arr [.int (-15), .bstr (List.replicate 8 3)]]), List.replicate 64 1, []⟩ := by
  have h2 : decPtxt2 true exPtxt2 = some (.inl (-1), ⟨.int 5, List.replicate 8 1, some [1]⟩) := by decide +kernel
  have h3 : decPtxt3 true exPtxt3 =
      some ⟨.map ⟨none, none, none, some (.inl (-15), List.replicate 8 3), none, none, none, none, none⟩, List.replicate 64 1, none⟩ := by
    decide +kernel
  obtain ⟨a2, b2⟩ := decPtxt2_iff.1 h2
  obtain ⟨a3, b3⟩ := decPtxt3_iff.1 h3
  refine ⟨C63_plaintext_2_complete (ead := some [1]) b2 a2 ?_ rfl rfl (by decide) (by unfold IdRoom; decide +kernel) (by decide) (by decide),
    C63_plaintext_3_complete (ead := none) b3 a3 rfl rfl ⟨by decide +kernel, by intro v t h; cases h⟩ (by decide) (by decide)⟩
  show [0x20] = enc (.int (-1))
  decide +kernel

end Verif.Edhoc
