import Verif.Props.EdhocWire
import Verif.Props.EdhocSchedule
import Verif.Lemmas.EdhocCodecLemmas
import Verif.Lemmas.SafeLemmas
import Verif.Spec.EdhocSafeSpec
/-
C68: the EDHOC calls never touch memory outside their objects.
-/
namespace Verif.Edhoc
open Verif Verif.Cbor Verif.EdhocGrammar Verif.EdhocSafe
namespace Safe
open Verif.Safe (check_nub cborOut_nub)

theorem ok_nub {α : Type} {a : α} : (R.ok a : R α) ≠ .ub := by intro h; cases h
theorem pure_nub {α : Type} {a : α} : (pure a : R α) ≠ .ub := by intro h; cases h
theorem err_nub {α : Type} {e : Err} : (R.err e : R α) ≠ .ub := by intro h; cases h

/-! ### the parts that have no undefined behaviour -/

theorem append_nub {d s : Bytes} {cap : Nat} : byteArrayAppend d s cap ≠ .ub := by
  unfold byteArrayAppend
  split
  · exact err_nub
  · exact Verif.Safe.bind_nub memcpyS_nub fun _ _ => pure_nub

theorem append_len {d s o : Bytes} {cap : Nat} (h : byteArrayAppend d s cap = .ok o) (hd : d.length ≤ cap)
    (hc : cap < 2 ^ 32) : o.length ≤ cap := by
  unfold byteArrayAppend at h
  split at h
  · cases h
  · obtain ⟨t, h1, h2⟩ := R.bind_eq_ok.1 h
    obtain ⟨rfl, h1⟩ := memcpyS_ok.1 h1
    rw [← R.ok.inj h2, List.length_append]
    omega

theorem encodeBstr_nub {b : Bytes} {cap : Nat} : encodeBstr b cap ≠ .ub := cborOut_nub
theorem encodeInt_nub {i : Int} {cap : Nat} : encodeInt i cap ≠ .ub := cborOut_nub

theorem decodeBstr_nub {cfg : ECfg} {b : Bytes} {cap : Nat} : decodeBstr cfg b cap ≠ .ub := by
  unfold decodeBstr
  split
  · exact err_nub
  · exact memcpyS_nub

theorem decodeInt_nub {cfg : ECfg} {b : Bytes} : decodeInt cfg b ≠ .ub := by
  unfold decodeInt
  split
  · exact err_nub
  · split
    · exact err_nub
    · exact ok_nub

theorem kdf_nub {cfg : ECfg} {C : ECrypto} {prk ctx : Bytes} {label L : Nat} : edhocKdf cfg C prk label ctx L ≠ .ub := by
  unfold edhocKdf
  refine Verif.Safe.bind_nub check_nub fun _ _ => Verif.Safe.bind_nub cborOut_nub fun _ _ => ?_
  unfold hkdfExpand
  simp only
  split
  · exact err_nub
  · split
    · exact err_nub
    · exact ok_nub

theorem th2_nub {C : ECrypto} {h1 gY : Bytes} : th2Calc C h1 gY ≠ .ub := by
  unfold th2Calc
  exact Verif.Safe.bind_nub check_nub fun _ _ => Verif.Safe.bind_nub cborOut_nub fun _ _ => pure_nub

theorem th34_nub {cfg : ECfg} {C : ECrypto} {th pt cred : Bytes} (hth : th.length = 32) :
    th34Calc cfg C th pt cred ≠ .ub := by
  unfold th34Calc
  refine Verif.Safe.bind_nub check_nub fun _ _ => Verif.Safe.bind_nub ?_ fun _ _ => pure_nub
  unfold th34Input
  refine Verif.Safe.bind_nub encodeBstr_nub fun e he => Verif.Safe.bind_nub memcpyS_nub fun _ _ => Verif.Safe.bind_nub memcpyS_nub fun _ _ => ?_
  obtain ⟨rfl, _⟩ := encodeBstr_ok.1 he
  rw [if_neg (by rw [bstr_32_length hth, asBstr_32]; omega)]
  exact pure_nub

theorem th34_len {cfg : ECfg} {C : ECrypto} (hC : C.Lawful) {th pt cred t : Bytes} (h : th34Calc cfg C th pt cred = .ok t) :
    t.length = 32 := by
  unfold th34Calc at h
  obtain ⟨_, _, h⟩ := R.bind_eq_ok.1 h
  obtain ⟨i, _, h⟩ := R.bind_eq_ok.1 h
  rw [← R.ok.inj h]
  exact hC.base.hash_len _

theorem th2_len {C : ECrypto} (hC : C.Lawful) {h1 gY t : Bytes} (h : th2Calc C h1 gY = .ok t) : t.length = 32 := by
  rw [th2_ok h]; exact hC.base.hash_len _

theorem shared_nub {C : ECrypto} {a : EcdhAlg} {sk pk : Bytes} (h1 : 32 ≤ sk.length) (h2 : 32 ≤ pk.length) :
    sharedSecret C a sk pk ≠ .ub := by
  unfold sharedSecret
  rw [if_neg (by omega)]
  split
  · exact ok_nub
  · exact err_nub

theorem sign_nub {C : ECrypto} {a : SignAlg} {sk pk m : Bytes} (h1 : 32 ≤ sk.length) (h2 : 32 ≤ pk.length) :
    signMsg C a sk pk m ≠ .ub := by
  unfold signMsg
  rw [if_neg (by omega)]
  split
  · exact ok_nub
  · exact err_nub

theorem verify_nub {C : ECrypto} {a : SignAlg} {pk m s : Bytes} (h : a = .eddsa → 64 ≤ s.length ∧ 32 ≤ pk.length) :
    verifySig C a pk m s ≠ .ub := by
  unfold verifySig
  rw [if_neg (by rintro ⟨h1, h2⟩; have := h h1; omega)]
  split
  · exact ok_nub
  · exact err_nub

theorem prk_nub {cfg : ECfg} {C : ECrypto} {sd : Bool} {suite : Suite} {label : Nat} {ctx prk pk sk : Bytes}
    (h : sd = true → 32 ≤ sk.length ∧ 32 ≤ pk.length) : prkDerive cfg C sd suite label ctx prk pk sk ≠ .ub := by
  unfold prkDerive
  cases sd with
  | true =>
    obtain ⟨h1, h2⟩ := h rfl
    exact Verif.Safe.bind_nub (shared_nub h1 h2) fun _ _ => Verif.Safe.bind_nub kdf_nub fun _ _ => pure_nub
  | false => exact pure_nub

/-! ### MAC and signature -/

theorem macCr_nub {cfg : ECfg} {cR mem : Bytes} (h : isRawInt cR = true → 3 ≤ mem.length) : macCr cfg cR mem ≠ .ub := by
  unfold macCr
  split
  · exact pure_nub
  · refine Verif.Safe.bind_nub check_nub fun _ _ => ?_
    by_cases hr : isRawInt cR = true
    · rw [if_pos hr]
      have h := h hr
      match cR, mem, hr, h with
      | [b], m0 :: m1 :: m2 :: r, _, _ => exact encodeInt_nub
      | [b], [], _, h => simp at h
      | [b], [_], _, h => simp at h
      | [b], [_, _], _, h => simp at h
      | [], _, hr, _ => simp [isRawInt] at hr
      | _ :: _ :: _, _, hr, _ => simp [isRawInt] at hr
    · rw [if_neg hr]; exact encodeBstr_nub

theorem mac_nub {cfg : ECfg} {C : ECrypto} {prk cR mem th idCred cred ead : Bytes} {label : Nat} {sd : Bool} {suite : Suite}
    (h : isRawInt cR = true → 3 ≤ mem.length) : mac cfg C prk cR mem th idCred cred ead label sd suite ≠ .ub := by
  unfold mac
  refine Verif.Safe.bind_nub ?_ fun _ _ => kdf_nub
  unfold macContext
  exact Verif.Safe.bind_nub check_nub fun _ _ => Verif.Safe.bind_nub encodeBstr_nub fun _ _ => Verif.Safe.bind_nub check_nub fun _ _ =>
    Verif.Safe.bind_nub (macCr_nub h) fun _ _ => Verif.Safe.bind_nub append_nub fun _ _ => Verif.Safe.bind_nub append_nub fun _ _ =>
    Verif.Safe.bind_nub append_nub fun _ _ => Verif.Safe.bind_nub append_nub fun _ _ => append_nub

theorem sigStruct_nub {cfg : ECfg} {th idCred cred ead m : Bytes} : sigStruct cfg th idCred cred ead m ≠ .ub := by
  unfold sigStruct
  exact Verif.Safe.bind_nub check_nub fun _ _ => Verif.Safe.bind_nub encodeBstr_nub fun _ _ => Verif.Safe.bind_nub check_nub fun _ _ => cborOut_nub

theorem gen_nub {cfg : ECfg} {C : ECrypto} {sd : Bool} {suite : Suite} {sk pk prk cR mem th idCred cred ead : Bytes} {label : Nat}
    (hm : isRawInt cR = true → 3 ≤ mem.length) (hk : sd = false → 32 ≤ sk.length ∧ 32 ≤ pk.length) :
    sigOrMacGen cfg C sd suite sk pk prk cR mem th idCred cred ead label ≠ .ub := by
  unfold sigOrMacGen
  refine Verif.Safe.bind_nub (mac_nub hm) fun m _ => ?_
  cases sd with
  | true => exact pure_nub
  | false => exact Verif.Safe.bind_nub sigStruct_nub fun _ _ => sign_nub (hk rfl).1 (hk rfl).2

theorem gen_len {cfg : ECfg} {C : ECrypto} (hC : C.Lawful) {sd : Bool} {suite : Suite}
    {sk pk prk cR mem th idCred cred ead sm : Bytes} {label : Nat} (hs : suite.macLen ≤ 16)
    (h : sigOrMacGen cfg C sd suite sk pk prk cR mem th idCred cred ead label = .ok sm) : sm.length ≤ 64 := by
  unfold sigOrMacGen at h
  obtain ⟨m, hm, h⟩ := R.bind_eq_ok.1 h
  cases sd with
  | true =>
    obtain ⟨c0, _, rfl⟩ := mac_ok hC hs hm
    simp only [↓reduceIte] at h
    rw [← R.ok.inj h, EdhocSpec.kdf, C37_length hC.base]
    simp only [EdhocSpec.macLength, ↓reduceIte]
    omega
  | false =>
    simp only [Bool.false_eq_true, ↓reduceIte] at h
    obtain ⟨s, _, h⟩ := R.bind_eq_ok.1 h
    unfold signMsg at h
    split at h
    · cases h
    · split at h
      · rename_i x hx
        rw [← R.ok.inj h, hC.sign_len _ _ _ _ _ hx]
        omega
      · cases h

theorem ver_nub {cfg : ECfg} {C : ECrypto} (hC : C.Lawful) {sd : Bool} {suite : Suite}
    {pk prk cR mem th idCred cred ead rcv : Bytes} {label : Nat} (hs : suite.macLen ≤ 16)
    (hm : isRawInt cR = true → 3 ≤ mem.length) (hk : sd = false → 32 ≤ pk.length)
    (hr : SmOk sd (decide (suite.sign = .eddsa)) suite.macLen rcv) :
    sigOrMacVerify cfg C sd suite pk prk cR mem th idCred cred ead label rcv ≠ .ub := by
  unfold sigOrMacVerify
  refine Verif.Safe.bind_nub (mac_nub hm) fun m hmac => ?_
  cases sd with
  | true =>
    simp only [SmOk, ↓reduceIte] at hr ⊢
    obtain ⟨c0, _, rfl⟩ := mac_ok hC hs hmac
    unfold macCompare
    rw [if_pos (by rw [EdhocSpec.kdf, C37_length hC.base]; simpa [EdhocSpec.macLength] using hr)]
    split
    · exact pure_nub
    · exact err_nub
  | false =>
    simp only [SmOk, Bool.false_eq_true, ↓reduceIte, decide_eq_true_eq] at hr ⊢
    refine Verif.Safe.bind_nub sigStruct_nub fun _ _ => Verif.Safe.bind_nub (verify_nub fun h => ⟨hr h, hk rfl⟩) fun b _ => ?_
    cases b
    · exact err_nub
    · exact pure_nub

/-! ### the peer's credential -/

theorem entries_ent {α : Type} {k : Nat} {item : α → Item} {o : Option α} {r : List Item} :
    entries (ent k item o ++ r) = (match o with | none => [] | some v => [(Item.uint k, item v)]) ++ entries r := by
  cases o <;> rfl

theorem entries_ent' {α : Type} {k : Nat} {item : α → Item} {o : Option α} :
    entries (ent k item o) = (match o with | none => [] | some v => [(Item.uint k, item v)]) := by
  cases o <;> rfl

theorem uint_entry {α : Type} {k j : Nat} {item : α → Item} {o : Option α} {x : Item}
    (h : (Item.uint k, x) ∈ (match o with | none => [] | some v => [(Item.uint j, item v)])) : k = j ∧ ∃ v, o = some v ∧ x = item v := by
  cases o with
  | none => cases h
  | some v =>
    simp only [List.mem_singleton, Prod.mk.injEq, Item.uint.injEq] at h
    exact ⟨h.1, v, rfl, h.2⟩

theorem mem_entries {m : IdMap} {k : Nat} {x : Item} (h : (Item.uint k, x) ∈ entries (idMapEntries m)) :
    (k = 33 → ∃ c, m.x5chain = some c ∧ x = .bstr c) ∧ (k = 34 → ∃ v, m.x5t = some v ∧ x = algHash v) := by
  unfold idMapEntries at h
  simp only [entries_ent, entries_ent', List.mem_append] at h
  rcases h with h | h | h | h | h | h | h | h | h <;> obtain ⟨rfl, v, h1, h2⟩ := uint_entry h <;>
    refine ⟨fun e => ?_, fun e => ?_⟩ <;> first | exact ⟨v, h1, h2⟩ | omega

theorem entries_mem {m : IdMap} {v : (Int ⊕ Bytes) × Bytes} (h : m.x5t = some v) :
    (Item.uint 34, algHash v) ∈ entries (idMapEntries m) := by
  unfold idMapEntries
  simp only [entries_ent, entries_ent', List.mem_append, h]
  simp

theorem isIdCred_field (f : IdField) : IsIdCred (idFieldItem f) := by
  cases f with
  | int i => exact .inl ⟨i, rfl⟩
  | bstr b => exact .inr (.inl ⟨b, rfl⟩)
  | map m =>
    refine .inr (.inr ⟨idMapEntries m, rfl, fun e h => ?_⟩)
    unfold idMapEntries at h
    simp only [entries_ent, entries_ent', List.mem_append] at h
    rcases h with h | h | h | h | h | h | h | h | h <;> split at h <;>
      simp only [List.mem_singleton, List.not_mem_nil] at h <;> subst h <;> exact ⟨_, by decide, rfl⟩

/-- what a readable identifier is to the decoder -/
theorem readable_map {m : IdMap} (h : Readable (.map (idMapEntries m))) :
    (m.x5chain.isSome = true ∨ m.x5t.isSome = true) ∧ ∀ t h, m.x5t ≠ some (.inr t, h) := by
  rcases h with ⟨i, hi⟩ | ⟨es, he, h1, h2⟩
  · unfold Item.int at hi; split at hi <;> cases hi
  · cases he
    refine ⟨?_, fun t h e => h2 t h (entries_mem e)⟩
    rcases h1 with ⟨c, h1⟩ | ⟨a, h, h1⟩
    · obtain ⟨c, e, _⟩ := (mem_entries h1).1 rfl
      exact .inl (by rw [e]; rfl)
    · obtain ⟨c, e, _⟩ := (mem_entries h1).2 rfl
      exact .inr (by rw [e]; rfl)

theorem idCredOf_nub {f : IdField} {cap : Nat} (h : Readable (idFieldItem f)) : idCredOf f cap ≠ .ub := by
  cases f with
  | int i => exact cborOut_nub
  | bstr b =>
    rcases h with ⟨i, hi⟩ | ⟨es, he, _⟩
    · simp only [idFieldItem] at hi; unfold Item.int at hi; split at hi <;> cases hi
    · cases he
  | map m =>
    obtain ⟨h1, h2⟩ := readable_map h
    unfold idCredOf
    simp only
    split
    · rename_i e1 e2; rw [e1, e2] at h1; rcases h1 with h1 | h1 <;> cases h1
    · exact cborOut_nub
    · rename_i a hh _ e2
      cases a with
      | inl i => exact cborOut_nub
      | inr t => exact absurd e2 (h2 t hh)
    · rename_i a hh e1 e2
      refine Verif.Safe.bind_nub cborOut_nub fun _ _ => ?_
      cases a with
      | inl i => exact cborOut_nub
      | inr t => exact absurd e2 (h2 t hh)

theorem kidEnc (k : Int) : cborMap 1 ++ cborUint 4 ++ cborInt k = idKid k := by
  unfold idKid
  rw [enc.eq_def (.map _)]
  simp only [cborMap, cborArr, cborHead_eq, cborUint_eq, cborInt_eq, encList, List.append_nil, List.append_assoc]
  simp

theorem x5chainEnc (c : Bytes) : cborMap 1 ++ cborUint 33 ++ cborBstr c = idX5chain c := by
  unfold idX5chain
  rw [enc.eq_def (.map _)]
  simp only [cborMap, cborArr, cborHead_eq, cborUint_eq, cborBstr_eq, encList, List.append_nil, List.append_assoc]
  simp

theorem x5tEnc (a : Int) (h : Bytes) : cborMap 1 ++ cborUint 34 ++ cborArr 2 ++ cborInt a ++ cborBstr h = idX5t a h := by
  unfold idX5t
  rw [enc.eq_def (.map _)]
  simp only [cborMap, cborArr, cborHead_eq, cborUint_eq, cborInt_eq, cborBstr_eq, encList, List.append_nil, List.append_assoc]
  rw [enc.eq_def (.arr _)]
  simp only [encList, List.append_nil, List.append_assoc]
  simp

theorem bstr_len (c : Bytes) : c.length ≤ (enc (.bstr c)).length := by
  rw [enc.eq_def, List.length_append]; omega

theorem x5chain_wire {c id : Bytes} {cap : Nat} (h : idCredX5chain c cap = .ok id) (hc : cap < 2 ^ 32) :
    id.length ≤ cap ∧ ∃ w, IdWire id w := by
  unfold idCredX5chain at h
  rw [x5chainEnc, cborOut_ok] at h
  obtain ⟨rfl, hl⟩ := h
  refine ⟨hl, _, .x5chain (c := c) ?_⟩
  have hl2 := hl
  unfold idX5chain at hl2
  rw [enc.eq_def (.map _)] at hl2
  simp only [encList, List.length_append, List.append_nil] at hl2
  have := bstr_len c
  omega

theorem x5t_wire {a : Int} {v id : Bytes} {cap : Nat} (h : idCredX5t (.inl a) v cap = .ok id) (ha : I32 a) (hc : cap < 2 ^ 32) :
    ∃ w, IdWire id w := by
  simp only [idCredX5t] at h
  rw [x5tEnc, cborOut_ok] at h
  obtain ⟨rfl, hl⟩ := h
  refine ⟨_, .x5t (a := a) (h := v) ha ?_⟩
  unfold idX5t at hl
  rw [enc.eq_def (.map _)] at hl
  simp only [encList, List.length_append, List.append_nil] at hl
  rw [enc.eq_def (.arr _)] at hl
  simp only [encList, List.length_append, List.append_nil] at hl
  have := bstr_len v
  omega

/-- the identifier the library rebuilds has one of the three forms it can send itself -/
theorem idCredOf_wire {f : IdField} {cap : Nat} {id : Bytes} (h : idCredOf f cap = .ok id) (hf : IdFieldOk f)
    (hc : cap < 2 ^ 32) : ∃ w, IdWire id w := by
  cases f with
  | int i =>
    simp only [idCredOf, idCredKid] at h
    rw [kidEnc, cborOut_ok] at h
    rw [h.1]
    exact ⟨_, .kid hf⟩
  | bstr b => cases h
  | map m =>
    unfold idCredOf at h
    simp only at h
    split at h
    · cases h
    · exact (x5chain_wire h hc).2
    · rename_i a hh _ e2
      cases a with
      | inr t => cases h
      | inl i =>
        refine x5t_wire h ?_ hc
        have := hf.2.1
        rw [e2] at this
        exact this
    · rename_i a hh e1 e2
      obtain ⟨x, hx, h⟩ := R.bind_eq_ok.1 h
      cases a with
      | inr t => cases h
      | inl i =>
        refine x5t_wire h ?_ (Nat.lt_of_le_of_lt (x5chain_wire hx hc).1 hc)
        have := hf.2.1
        rw [e2] at this
        exact this

/-- the keys of the peer are long enough: every stored credential has the key for this kind of authentication, and the
certificates the X.509 library accepts have one -/
def PeerKeys (C : ECrypto) (creds : List Cred) (sd : Bool) : Prop :=
  (∀ c ∈ creds, 32 ≤ (if sd then c.g else c.pk).length) ∧ ∀ cert x, C.x509 cert = some x → 32 ≤ x.pk.length

/-- the keys found are long enough -/
def GoodKeys (sd : Bool) (o : CredOut) : Prop := (sd = false → 32 ≤ o.2.1.length) ∧ (sd = true → 32 ≤ o.2.2.length)

theorem caSearch_nub {C : ECrypto} {mem : Bytes} (creds : List Cred) : caSearch C mem creds ≠ .ub := by
  induction creds with
  | nil => exact err_nub
  | cons c cs ih =>
    unfold caSearch
    split
    · exact ih
    · split
      · exact err_nub
      · split
        · exact ok_nub
        · exact ih

theorem caPkGet_nub {C : ECrypto} {mem : Bytes} {creds : List Cred} : caPkGet C creds mem ≠ .ub := by
  unfold caPkGet
  split
  · split
    · split
      · exact err_nub
      · exact ok_nub
    · exact caSearch_nub _
  · exact caSearch_nub _

theorem x509_nub {C : ECrypto} {cert : Bytes} {creds : List Cred} {cap : Nat} : certX509Verify C cert creds cap ≠ .ub := by
  unfold certX509Verify
  split
  · exact err_nub
  · split
    · exact err_nub
    · exact Verif.Safe.bind_nub caPkGet_nub fun _ _ => Verif.Safe.bind_nub (verify_nub (fun h => by cases h)) fun _ _ =>
        Verif.Safe.bind_nub memcpyS_nub fun _ _ => pure_nub

theorem x509_key {C : ECrypto} {cert : Bytes} {creds : List Cred} {cap : Nat} {v : Bool} {k : Bytes}
    (h : certX509Verify C cert creds cap = .ok (v, k)) (hx : ∀ cert x, C.x509 cert = some x → 32 ≤ x.pk.length) :
    32 ≤ k.length := by
  unfold certX509Verify at h
  split at h
  · cases h
  · rename_i x hc
    split at h
    · cases h
    · obtain ⟨_, _, h⟩ := R.bind_eq_ok.1 h
      obtain ⟨_, _, h⟩ := R.bind_eq_ok.1 h
      obtain ⟨k', h1, h⟩ := R.bind_eq_ok.1 h
      obtain ⟨rfl, _⟩ := memcpyS_ok.1 h1
      have := R.ok.inj h
      simp only [Prod.mk.injEq] at this
      rw [← this.2]
      exact hx _ _ hc

theorem localKeys_nub {sd : Bool} {c : Cred} : localKeys sd c ≠ .ub := by
  unfold localKeys
  split
  · split
    · exact Verif.Safe.bind_nub memcpyS_nub fun _ _ => pure_nub
    · exact Verif.Safe.bind_nub memcpyS_nub fun _ _ => pure_nub
  · exact Verif.Safe.bind_nub memcpyS_nub fun _ _ => pure_nub

theorem localKeys_good {sd : Bool} {c : Cred} {k : Bytes × Bytes} (h : localKeys sd c = .ok k)
    (hk : 32 ≤ (if sd then c.g else c.pk).length) (cred : Bytes) : GoodKeys sd (cred, k) := by
  unfold localKeys at h
  cases sd with
  | true =>
    simp only [↓reduceIte] at h hk
    split at h
    · rename_i h65
      obtain ⟨t, h1, h⟩ := R.bind_eq_ok.1 h
      obtain ⟨rfl, _⟩ := memcpyS_ok.1 h1
      rw [← R.ok.inj h]
      refine ⟨by simp, fun _ => ?_⟩
      simp only [List.length_cons, List.length_take, List.length_drop]
      omega
    · obtain ⟨t, h1, h⟩ := R.bind_eq_ok.1 h
      obtain ⟨rfl, _⟩ := memcpyS_ok.1 h1
      rw [← R.ok.inj h]
      exact ⟨by simp, fun _ => hk⟩
  | false =>
    simp only [Bool.false_eq_true, ↓reduceIte] at h hk
    obtain ⟨t, h1, h⟩ := R.bind_eq_ok.1 h
    obtain ⟨rfl, _⟩ := memcpyS_ok.1 h1
    rw [← R.ok.inj h]
    exact ⟨fun _ => hk, by simp⟩

theorem local_safe {sd : Bool} {id : Bytes} {cap : Nat} {creds : List Cred}
    (hk : ∀ c ∈ creds, 32 ≤ (if sd then c.g else c.pk).length) :
    getLocalCred sd id cap creds ≠ .ub ∧ ∀ o, getLocalCred sd id cap creds = .ok o → GoodKeys sd o := by
  induction creds with
  | nil => exact ⟨err_nub, fun o h => by cases h⟩
  | cons c cs ih =>
    have ih := ih fun c hc => hk c (List.mem_cons_of_mem _ hc)
    unfold getLocalCred
    split
    · refine ⟨Verif.Safe.bind_nub memcpyS_nub fun _ _ => Verif.Safe.bind_nub localKeys_nub fun _ _ => pure_nub, ?_⟩
      intro o h
      obtain ⟨cr, _, h⟩ := R.bind_eq_ok.1 h
      obtain ⟨⟨pk, g⟩, h1, h⟩ := R.bind_eq_ok.1 h
      rw [← R.ok.inj h]
      exact localKeys_good h1 (hk c List.mem_cons_self) cr
    · exact ih

theorem cert_safe {cfg : ECfg} {C : ECrypto} {sd : Bool} {creds : List Cred} {cert : Bytes} {cap : Nat}
    (hx : ∀ cert x, C.x509 cert = some x → 32 ≤ x.pk.length) :
    verifyCert2cred cfg C sd creds true cert cap ≠ .ub ∧
      ∀ o, verifyCert2cred cfg C sd creds true cert cap = .ok o → GoodKeys sd o := by
  unfold verifyCert2cred
  constructor
  · refine Verif.Safe.bind_nub encodeBstr_nub fun _ _ => ?_
    unfold certOut
    refine Verif.Safe.bind_nub x509_nub fun x _ => ?_
    obtain ⟨v, k⟩ := x
    cases v
    · exact err_nub
    · exact pure_nub
  · intro o h
    obtain ⟨_, _, h⟩ := R.bind_eq_ok.1 h
    unfold certOut at h
    obtain ⟨⟨v, k⟩, h1, h⟩ := R.bind_eq_ok.1 h
    have hk := x509_key h1 hx
    cases v
    · cases h
    · simp only [↓reduceIte] at h
      rw [← R.ok.inj h]
      cases sd
      · exact ⟨fun _ => hk, by simp⟩
      · exact ⟨by simp, fun _ => hk⟩

theorem retrieve_safe {cfg : ECfg} {C : ECrypto} {sd : Bool} {creds : List Cred} {id w : Bytes} {cap : Nat} (hw : IdWire id w)
    (hk : PeerKeys C creds sd) :
    retrieveCred cfg C sd creds id cap ≠ .ub ∧ ∀ o, retrieveCred cfg C sd creds id cap = .ok o → GoodKeys sd o := by
  unfold retrieveCred
  cases hw with
  | @kid k h =>
    have := zIdMap_kid cfg.strictCbor [] h
    rw [List.append_nil] at this
    rw [this]
    exact local_safe hk.1
  | @x5chain c h =>
    have := zIdMap_x5chain cfg.strictCbor [] (c := c) (by omega)
    rw [List.append_nil] at this
    rw [this]
    exact cert_safe hk.2
  | @x5t a h h1 h2 =>
    have := zIdMap_x5t cfg.strictCbor [] h1 (h := h) (by omega)
    rw [List.append_nil] at this
    rw [this]
    exact local_safe hk.1

/-! ### plaintexts -/

theorem crOf_nub {c : Int ⊕ Bytes} {cap : Nat} : crOf c cap ≠ .ub := by
  cases c with
  | inl i => exact encodeInt_nub
  | inr b => exact memcpyS_nub

theorem eadOf_nub {e : Option Bytes} {cap : Nat} : eadOf e cap ≠ .ub := by
  cases e with
  | none => exact ok_nub
  | some b => exact memcpyS_nub

theorem split_safe {p : Ptxt3} {idCap eadCap : Nat} (hr : Readable (idFieldItem p.id)) (hf : IdFieldOk p.id) (hc : idCap < 2 ^ 32) :
    splitFields p idCap eadCap ≠ .ub ∧ ∀ s, splitFields p idCap eadCap = .ok s → (∃ w, IdWire s.idCred w) ∧ s.sigOrMac = p.sigOrMac := by
  unfold splitFields
  constructor
  · exact Verif.Safe.bind_nub (idCredOf_nub hr) fun _ _ => Verif.Safe.bind_nub memcpyS_nub fun _ _ =>
      Verif.Safe.bind_nub eadOf_nub fun _ _ => pure_nub
  · intro s h
    obtain ⟨id, h1, h⟩ := R.bind_eq_ok.1 h
    obtain ⟨sm, h2, h⟩ := R.bind_eq_ok.1 h
    obtain ⟨e, _, h⟩ := R.bind_eq_ok.1 h
    rw [← R.ok.inj h]
    exact ⟨idCredOf_wire h1 hf hc, (memcpyS_ok.1 h2).1⟩

theorem split3_safe {cfg : ECfg} {ptxt : Bytes} {idCap eadCap ml : Nat} {sd ed : Bool} (hc : idCap < 2 ^ 32)
    (hh : Harmless3 cfg.strictCbor sd ed ml ptxt) :
    plaintext3Split cfg ptxt idCap eadCap ≠ .ub ∧
      ∀ s, plaintext3Split cfg ptxt idCap eadCap = .ok s → (∃ w, IdWire s.idCred w) ∧ SmOk sd ed ml s.sigOrMac := by
  unfold plaintext3Split
  cases hd : decPtxt3 cfg.strictCbor ptxt with
  | none => exact ⟨err_nub, fun s h => by cases h⟩
  | some p =>
    obtain ⟨h1, h2⟩ := decPtxt3_iff.1 hd
    obtain ⟨h3, h4⟩ := hh _ _ _ h2 (isIdCred_field _)
    obtain ⟨h5, h6⟩ := split_safe (idCap := idCap) (eadCap := eadCap) h3 h1 hc
    refine ⟨h5, fun s hs => ?_⟩
    obtain ⟨h7, h8⟩ := h6 s hs
    exact ⟨h7, by rw [h8]; exact h4⟩

theorem split2_safe {cfg : ECfg} {ptxt : Bytes} {crCap idCap eadCap ml : Nat} {sd ed : Bool} (hc : idCap < 2 ^ 32)
    (hh : Harmless2 cfg.strictCbor sd ed ml ptxt) :
    plaintext2Split cfg ptxt crCap idCap eadCap ≠ .ub ∧
      ∀ c s, plaintext2Split cfg ptxt crCap idCap eadCap = .ok (c, s) → (∃ w, IdWire s.idCred w) ∧ SmOk sd ed ml s.sigOrMac := by
  unfold plaintext2Split
  cases hd : decPtxt2 cfg.strictCbor ptxt with
  | none => exact ⟨err_nub, fun c s h => by cases h⟩
  | some x =>
    obtain ⟨c0, p⟩ := x
    obtain ⟨h1, h2⟩ := decPtxt2_iff.1 hd
    obtain ⟨h3, h4⟩ := hh _ _ _ _ h2 (isIdCred_field _)
    obtain ⟨h5, h6⟩ := split_safe (idCap := idCap) (eadCap := eadCap) h3 h1 hc
    refine ⟨Verif.Safe.bind_nub crOf_nub fun _ _ => Verif.Safe.bind_nub h5 fun _ _ => pure_nub, ?_⟩
    intro c s h
    obtain ⟨_, _, h⟩ := R.bind_eq_ok.1 h
    obtain ⟨s', hs, h⟩ := R.bind_eq_ok.1 h
    have := R.ok.inj h
    simp only [Prod.mk.injEq] at this
    obtain ⟨h7, h8⟩ := h6 s' hs
    rw [← this.2]
    exact ⟨h7, by rw [h8]; exact h4⟩

theorem keyGen_nub {cfg : ECfg} {C : ECrypto} {ct : Ctxt} {prk th : Bytes} {len : Nat} : keyGen cfg C ct prk th len ≠ .ub := by
  unfold keyGen
  split
  · exact Verif.Safe.bind_nub check_nub fun _ _ => Verif.Safe.bind_nub kdf_nub fun _ _ => pure_nub
  · exact Verif.Safe.bind_nub kdf_nub fun _ _ => Verif.Safe.bind_nub kdf_nub fun _ _ => pure_nub

theorem dec_nub {cfg : ECfg} {C : ECrypto} {ct : Ctxt} {suite : Suite} {prk th c : Bytes} :
    ctxtDecrypt cfg C ct suite prk th c ≠ .ub := by
  unfold ctxtDecrypt
  refine Verif.Safe.bind_nub keyGen_nub fun x _ => Verif.Safe.bind_nub cborOut_nub fun _ _ => ?_
  split
  · exact pure_nub
  · split
    · exact err_nub
    · split
      · exact pure_nub
      · exact err_nub

theorem crField_nub {cfg : ECfg} {cR : Bytes} : crField cfg cR ≠ .ub := by
  unfold crField
  split
  · exact pure_nub
  · exact Verif.Safe.bind_nub check_nub fun _ _ => encodeBstr_nub

theorem idField_nub {cfg : ECfg} {idCred : Bytes} (h : NoBstrKid cfg.strictCbor idCred) : idField cfg idCred ≠ .ub := by
  unfold idField
  refine Verif.Safe.bind_nub ?_ fun _ _ => pure_nub
  unfold idCred2kid
  split
  · exact err_nub
  · rename_i m r hz
    split
    · exact ok_nub
    · exact encodeInt_nub
    · rename_i v hk
      obtain ⟨_, x, hx, he⟩ := zIdMap_iff.1 hz
      have e : idMapEntries m = .uint 4 :: .bstr v :: (idMapEntries m).drop 2 := by
        unfold idMapEntries; rw [hk]; rfl
      rw [e] at hx
      exact absurd he (h v _ x r hx)

/-- message_4 has neither C_R nor ID_CRED -/
theorem gen_safe {cfg : ECfg} {ct : Ctxt} {cR id sm ead : Bytes} {cap : Nat} (hid : ct ≠ .c4 → NoBstrKid cfg.strictCbor id)
    (hc : cap < 2 ^ 32) :
    plaintextGen cfg ct cR id sm ead cap ≠ .ub ∧ ∀ p, plaintextGen cfg ct cR id sm ead cap = .ok p → p.length ≤ cap := by
  unfold plaintextGen
  constructor
  · refine Verif.Safe.bind_nub check_nub fun _ _ => Verif.Safe.bind_nub encodeBstr_nub fun _ _ => ?_
    cases ct with
    | c2 => exact Verif.Safe.bind_nub crField_nub fun _ _ => Verif.Safe.bind_nub append_nub fun _ _ =>
        Verif.Safe.bind_nub (idField_nub (hid (by simp))) fun _ _ => Verif.Safe.bind_nub append_nub fun _ _ =>
        Verif.Safe.bind_nub append_nub fun _ _ => append_nub
    | c3 => exact Verif.Safe.bind_nub (idField_nub (hid (by simp))) fun _ _ => Verif.Safe.bind_nub append_nub fun _ _ =>
        Verif.Safe.bind_nub append_nub fun _ _ => append_nub
    | c4 => exact append_nub
  · intro p h
    obtain ⟨_, _, h⟩ := R.bind_eq_ok.1 h
    obtain ⟨_, _, h⟩ := R.bind_eq_ok.1 h
    cases ct with
    | c2 =>
      obtain ⟨_, _, h⟩ := R.bind_eq_ok.1 h
      obtain ⟨_, h1, h⟩ := R.bind_eq_ok.1 h
      obtain ⟨_, _, h⟩ := R.bind_eq_ok.1 h
      obtain ⟨_, h2, h⟩ := R.bind_eq_ok.1 h
      obtain ⟨_, h3, h⟩ := R.bind_eq_ok.1 h
      exact append_len h (append_len h3 (append_len h2 (append_len h1 (by simp) hc) hc) hc) hc
    | c3 =>
      obtain ⟨_, _, h⟩ := R.bind_eq_ok.1 h
      obtain ⟨_, h2, h⟩ := R.bind_eq_ok.1 h
      obtain ⟨_, h3, h⟩ := R.bind_eq_ok.1 h
      exact append_len h (append_len h3 (append_len h2 (by simp) hc) hc) hc
    | c4 => exact append_len h (by simp) hc

/-- a ciphertext that fits its buffer -/
theorem ctxtGen_nub {cfg : ECfg} {C : ECrypto} {ct : Ctxt} {suite : Suite} {cR id sm ead prk th : Bytes} {buf cap : Nat}
    (hid : ct ≠ .c4 → NoBstrKid cfg.strictCbor id) (hc : cap < 2 ^ 32)
    (hb : ∀ p, plaintextGen cfg ct cR id sm ead cap = .ok p → p.length + (if ct = .c2 then 0 else suite.aead.tagLen) ≤ buf) :
    ciphertextGen cfg C ct suite cR id sm ead prk th buf cap ≠ .ub := by
  unfold ciphertextGen
  refine Verif.Safe.bind_nub (gen_safe hid hc).1 fun p hp => Verif.Safe.bind_nub keyGen_nub fun k _ =>
    Verif.Safe.bind_nub ?_ fun _ _ => pure_nub
  have := hb p hp
  unfold ctxtEncrypt
  by_cases h2 : ct = .c2
  · rw [if_pos h2] at this ⊢
    rw [if_neg (by omega)]
    exact pure_nub
  · rw [if_neg h2] at this ⊢
    refine Verif.Safe.bind_nub cborOut_nub fun _ _ => ?_
    rw [if_neg (by omega)]
    split
    · exact pure_nub
    · exact err_nub

theorem kdf_bound {cfg : ECfg} {C : ECrypto} {prk ctx k : Bytes} {label L : Nat} (h : edhocKdf cfg C prk label ctx L = .ok k)
    (hL : L < 2 ^ 31) : L ≤ 255 * 32 := by
  unfold edhocKdf at h
  obtain ⟨_, _, h⟩ := R.bind_eq_ok.1 h
  obtain ⟨_, _, h⟩ := R.bind_eq_ok.1 h
  unfold hkdfExpand at h
  simp only at h
  split at h
  · cases h
  · omega

theorem dec2_rfc {cfg : ECfg} {C : ECrypto} (hC : C.Lawful) {suite : Suite} {h1 gY gxy th2 c p : Bytes} {m1 : Bytes}
    (e1 : h1 = C.hash m1) (ht : th2Calc C h1 gY = .ok th2) (hcl : c.length < 2 ^ 31)
    (h : ctxtDecrypt cfg C .c2 suite (hkdfExtract C.toCrypto th2 gxy) th2 c = .ok p) :
    p = EdhocSafe.plaintext2 C.hash C.hmac m1 gY gxy c := by
  have hb : c.length ≤ 255 * 32 := by
    unfold ctxtDecrypt at h
    obtain ⟨⟨k, iv⟩, h2, _⟩ := R.bind_eq_ok.1 h
    unfold keyGen at h2
    rw [if_pos rfl] at h2
    obtain ⟨_, _, h2⟩ := R.bind_eq_ok.1 h2
    obtain ⟨k', h3, _⟩ := R.bind_eq_ok.1 h2
    exact kdf_bound h3 hcl
  rw [ctxt2Dec_rfc hC hb h, th2_ok ht, e1, extract_eq]
  rfl

end Safe
open Safe

/-! ### the messages -/

/-- the sizes of the build are reasonable -/
structure CfgOk (cfg : ECfg) : Prop where
  plaintext : cfg.plaintext2Size < 2 ^ 31
  idCredR : cfg.idCredRSize < 2 ^ 31

theorem CfgOk.p3 {cfg : ECfg} (h : CfgOk cfg) : cfg.plaintext3Size < 2 ^ 31 := by
  have h1 := h.plaintext
  simp only [ECfg.plaintext2Size, ECfg.plaintext3Size] at h1 ⊢; omega
theorem CfgOk.idI {cfg : ECfg} (h : CfgOk cfg) : cfg.idCredISize < 2 ^ 31 := by
  have h1 := h.plaintext
  simp only [ECfg.plaintext2Size] at h1; omega
theorem CfgOk.ead {cfg : ECfg} (h : CfgOk cfg) : cfg.plaintext4Size < 2 ^ 32 := by
  have h1 := h.plaintext
  simp only [ECfg.plaintext2Size, ECfg.plaintext4Size] at h1 ⊢; omega

/-- the initiator's own configuration -/
structure InitOk (cfg : ECfg) (C : ECrypto) (c : ICtx) (creds : List Cred) (crBuf : Bytes) : Prop where
  suites : 1 ≤ c.suitesI.length ∧ c.suitesI.length ≤ 10
  x : 32 ≤ c.x.length
  i : c.method = 2 ∨ c.method = 3 → 32 ≤ c.i.length
  sig : ¬(c.method = 2 ∨ c.method = 3) → 32 ≤ c.skI.length ∧ 32 ≤ c.pkI.length
  peer : PeerKeys C creds (decide (c.method = 1 ∨ c.method = 3))
  id : NoBstrKid cfg.strictCbor c.idCredI
  buf : 4 ≤ crBuf.length

/-- the responder's own configuration; the initiator chooses the method, so it needs the keys for all of them -/
structure RespOk (cfg : ECfg) (C : ECrypto) (c : RCtx) (creds : List Cred) : Prop where
  y : 32 ≤ c.y.length
  r : 32 ≤ c.r.length
  sig : 32 ≤ c.skR.length ∧ 32 ≤ c.pkR.length
  peer : ∀ sd, PeerKeys C creds sd
  id : NoBstrKid cfg.strictCbor c.idCredR
  mem : ∀ b, c.cR = [b] → b.toNat ≤ 23 → 3 ≤ c.cRMem.length
  ead4 : cfg.message4 = true → c.ead4.length + 8 ≤ cfg.eadSize

theorem authType_eq (m : Int) : authType m (false, false) =
    (decide (m = 2 ∨ m = 3), decide (m = 1 ∨ m = 3)) := by
  unfold authType
  split
  · next h => simp [h]
  split
  · next h => simp [h]
  split
  · next h => simp [h]
  split
  · next h => simp [h]
  · next h1 h2 h3 h4 => simp [h2, h3, h4]

theorem raw_one {cR : Bytes} (h : isRawInt cR = true) : ∃ b, cR = [b] ∧ b.toNat ≤ 23 := by
  match cR, h with
  | [b], h => exact ⟨b, rfl, by simpa [isRawInt] using h⟩

/-- **C68** (message_1) Creating message_1 with 1 to 10 suites. -/
theorem C68_message_1 (cfg : ECfg) (C : ECrypto) (c : ICtx) (h : 1 ≤ c.suitesI.length ∧ c.suitesI.length ≤ 10) :
    msg1Gen cfg C c ≠ .ub := by
  unfold msg1Gen
  refine Verif.Safe.bind_nub ?_ fun _ _ => Verif.Safe.bind_nub ?_ fun _ _ => Verif.Safe.bind_nub Verif.Safe.cborOut_nub fun _ _ =>
    Verif.Safe.bind_nub ?_ fun _ _ => pure_nub
  · unfold suitesItem
    split
    · rename_i h0; rw [h0] at h; simp at h
    · exact ok_nub
    · rw [if_neg (by omega)]; exact ok_nub
  · unfold cIItem
    split
    · exact Verif.Safe.bind_nub decodeInt_nub fun _ _ => pure_nub
    · exact pure_nub
  · unfold getSuite
    (repeat' split) <;> first | exact ok_nub | exact err_nub

theorem getSuite_nub {n : Nat} : getSuite n ≠ .ub := by
  unfold getSuite
  (repeat' split) <;> first | exact ok_nub | exact err_nub

/-- **C68** (message_1 received, message_2 created) For every message_1 of an attacker whose G_X is not too short. -/
theorem C68_responder_message_1_partial (cfg : ECfg) (C : ECrypto) (c : RCtx) (creds : List Cred) (m1 ead : Bytes)
    (cICap : Nat) (hcfg : CfgOk cfg) (hC : C.Lawful) (hl : RespOk cfg C c creds)
    (hgx : ∀ method su gX cI e, Message1 cfg.strictCbor method su gX cI e m1 → 32 ≤ gX.length) :
    msg2Gen cfg C c m1 cICap ead ≠ .ub := by
  unfold msg2Gen
  refine Verif.Safe.bind_nub msg1Parse_nub fun p hp => ?_
  obtain ⟨su, cI, e, hm, _⟩ := C63_message_1.1 hp
  have hg := hgx _ _ _ _ _ hm
  have hraw : isRawInt c.cR = true → 3 ≤ c.cRMem.length := fun h => by
    obtain ⟨b, h1, h2⟩ := raw_one h
    exact hl.mem b h1 h2
  split
  · exact err_nub
  · unfold msg2Build
    refine Verif.Safe.bind_nub getSuite_nub fun suite hs => ?_
    rw [authType_eq]
    simp only
    refine Verif.Safe.bind_nub th2_nub fun th2 ht => Verif.Safe.bind_nub (shared_nub hl.y hg) fun gxy _ =>
      Verif.Safe.bind_nub (prk_nub fun _ => ⟨hl.r, hg⟩) fun prk3 _ => Verif.Safe.bind_nub ?_ fun x _ => ?_
    · unfold ctxt2Gen
      refine Verif.Safe.bind_nub (gen_nub hraw fun _ => hl.sig) fun sm _ => Verif.Safe.bind_nub Verif.Safe.check_nub fun _ hck => ?_
      have hck := checkBufferSize_ok.1 hck
      have h31 := hcfg.plaintext
      refine ctxtGen_nub (fun _ => hl.id) (by omega) fun p hp => ?_
      have := (gen_safe (fun _ => hl.id) (by omega)).2 p hp
      simp only [↓reduceIte]
      omega
    · refine Verif.Safe.bind_nub ?_ fun _ _ => Verif.Safe.bind_nub (th34_nub (th2_len hC ht)) fun _ _ => pure_nub
      unfold msg2Encode
      exact Verif.Safe.bind_nub Verif.Safe.check_nub fun _ _ => encodeBstr_nub

/-- **C68** (message_2 received, message_3 created) For every message_2 whose plaintext is readable. -/
theorem C68_initiator_message_2_partial (cfg : ECfg) (C : ECrypto) (c : ICtx) (creds : List Cred) (suite : Suite)
    (m1 m2 crBuf ead : Bytes) (L n : Nat) (hcfg : CfgOk cfg) (hC : C.Lawful) (hl : InitOk cfg C c creds crBuf)
    (hs : getSuite n = .ok suite)
    (hm2 : ∀ gY ct gXY, OneBstr cfg.strictCbor (gY ++ ct) m2 → gY.length = 32 → C.dh suite.ecdh c.x gY = some gXY →
      Harmless2 cfg.strictCbor (decide (c.method = 1 ∨ c.method = 3)) (decide (suite.sign = .eddsa)) suite.macLen
        (EdhocSafe.plaintext2 C.hash C.hmac m1 gY gXY ct)) :
    msg3Gen cfg C c creds suite (C.hash m1) m2 crBuf ead L ≠ .ub := by
  have hml := (suite_small hs).2
  unfold msg3Gen
  rw [authType_eq]
  simp only
  have hproc : msg2Process cfg C c creds suite (C.hash m1) m2 (decide (c.method = 2 ∨ c.method = 3))
      (decide (c.method = 1 ∨ c.method = 3)) crBuf ead ≠ .ub := by
    unfold msg2Process
    refine Verif.Safe.bind_nub Verif.Safe.check_nub fun _ hck => Verif.Safe.bind_nub ?_ fun x hx => ?_
    · unfold msg2Parse
      refine Verif.Safe.bind_nub decodeBstr_nub fun _ _ => ?_
      split
      · exact err_nub
      · exact Verif.Safe.bind_nub memcpyS_nub fun _ _ => pure_nub
    · obtain ⟨gY, ct⟩ := x
      obtain ⟨hb, hg, hcl, _⟩ := C63_message_2.1 hx
      have hck := checkBufferSize_ok.1 hck
      have h31 := hcfg.plaintext
      refine Verif.Safe.bind_nub (shared_nub hl.x (by omega)) fun gxy hgxy => Verif.Safe.bind_nub th2_nub fun th2 ht =>
        Verif.Safe.bind_nub dec_nub fun p hp => ?_
      have hpe := dec2_rfc hC rfl ht (by omega) hp
      have hh := hm2 gY ct gxy hb hg (sharedSecret_ok hgxy)
      rw [← hpe] at hh
      have hir := hcfg.idCredR
      obtain ⟨h1, h2⟩ := split2_safe (crCap := crBuf.length) (eadCap := ead.length) (idCap := cfg.idCredRSize) (by omega) hh
      refine Verif.Safe.bind_nub h1 fun y hy => ?_
      obtain ⟨cR, sp⟩ := y
      obtain ⟨⟨w, hw⟩, hsm⟩ := h2 _ _ hy
      simp only
      unfold msg2Auth
      obtain ⟨h3, h4⟩ := retrieve_safe (cfg := cfg) (cap := cfg.credRSize) hw hl.peer
      refine Verif.Safe.bind_nub h3 fun o ho => ?_
      obtain ⟨cred, pk, gR⟩ := o
      have hk := h4 _ ho
      have hth2 := th2_len hC ht
      have hmem : isRawInt cR = true → 3 ≤ (crBuf.drop cR.length).length := fun h => by
        obtain ⟨b, rfl, _⟩ := raw_one h
        have := hl.buf
        simp only [List.length_drop, List.length_singleton]
        omega
      refine Verif.Safe.bind_nub (prk_nub fun h => ⟨hl.x, hk.2 h⟩) fun _ _ =>
        Verif.Safe.bind_nub (ver_nub hC hml hmem hk.1 hsm) fun _ _ => Verif.Safe.bind_nub (th34_nub hth2) fun _ _ =>
        Verif.Safe.bind_nub (prk_nub fun h => ⟨hl.i (of_decide_eq_true h), by omega⟩) fun _ _ => pure_nub
  refine Verif.Safe.bind_nub hproc fun st hst => Verif.Safe.bind_nub ?_ fun _ _ => pure_nub
  have hth3 : st.th3.length = 32 := by
    unfold msg2Process at hst
    obtain ⟨_, _, hst⟩ := R.bind_eq_ok.1 hst
    obtain ⟨_, _, hst⟩ := R.bind_eq_ok.1 hst
    obtain ⟨_, _, hst⟩ := R.bind_eq_ok.1 hst
    obtain ⟨_, _, hst⟩ := R.bind_eq_ok.1 hst
    obtain ⟨_, _, hst⟩ := R.bind_eq_ok.1 hst
    obtain ⟨_, _, hst⟩ := R.bind_eq_ok.1 hst
    unfold msg2Auth at hst
    obtain ⟨_, _, hst⟩ := R.bind_eq_ok.1 hst
    obtain ⟨_, _, hst⟩ := R.bind_eq_ok.1 hst
    obtain ⟨_, _, hst⟩ := R.bind_eq_ok.1 hst
    obtain ⟨_, hth, hst⟩ := R.bind_eq_ok.1 hst
    obtain ⟨_, _, hst⟩ := R.bind_eq_ok.1 hst
    rw [← R.ok.inj hst]
    exact th34_len hC hth
  have hb3 : msg3Build cfg C c suite (decide (c.method = 2 ∨ c.method = 3)) st m2.length ≠ .ub := by
    unfold msg3Build
    refine Verif.Safe.bind_nub Verif.Safe.check_nub fun _ h1 => Verif.Safe.bind_nub Verif.Safe.check_nub fun _ h2 => ?_
    have h1 := checkBufferSize_ok.1 h1
    have h2 := checkBufferSize_ok.1 h2
    have h31 := hcfg.p3
    refine Verif.Safe.bind_nub (gen_nub (fun h => by simp [isRawInt] at h) fun h => hl.sig (of_decide_eq_false h)) fun sm _ =>
      Verif.Safe.bind_nub ?_ fun _ _ => Verif.Safe.bind_nub encodeBstr_nub fun _ _ => pure_nub
    refine ctxtGen_nub (fun _ => hl.id) (by omega) fun p hp => ?_
    have h3 := (gen_safe (fun _ => hl.id) (by omega)).2 p hp
    have h4 := le_asBstr (c.idCredI.length + asBstr sigOrMacSize + c.ead3.length)
    rw [if_neg (by simp)]
    omega
  unfold msg3OnlyGen
  cases e1 : msg3Build cfg C c suite (decide (c.method = 2 ∨ c.method = 3)) st m2.length with
  | ub => exact absurd e1 hb3
  | err e => exact ok_nub
  | ok x =>
    obtain ⟨m3, p3⟩ := x
    simp only
    cases e2 : th4Of cfg C st.th3 p3 c.credI with
    | ub => exact absurd e2 (th34_nub hth3)
    | err e => exact ok_nub
    | ok th4 =>
      simp only
      cases e3 : edhocKdf cfg C st.prk4e3m labelPrkOut th4 L with
      | ub => exact absurd e3 kdf_nub
      | err e => exact ok_nub
      | ok prk => exact ok_nub

/-- **C68** (message_3 received) For every message_3 that, if it decrypts, decrypts to a readable plaintext. -/
theorem C68_responder_message_3_partial (cfg : ECfg) (C : ECrypto) (c : RCtx) (creds : List Cred) (rs : RState)
    (m3 : Bytes) (L n : Nat) (hcfg : CfgOk cfg) (hC : C.Lawful) (hl : RespOk cfg C c creds)
    (hs : getSuite n = .ok rs.suite) (hth : rs.th3.length = 32)
    (hm3 : ∀ ct p, OneBstr cfg.strictCbor ct m3 →
      C.aeadDec (EdhocSpec.kdf C.hmac rs.prk3e2m 3 rs.th3 16) (EdhocSpec.kdf C.hmac rs.prk3e2m 4 rs.th3 13)
        (EdhocSpec.encStructure rs.th3) rs.suite.aead.tagLen ct = some p →
      Harmless3 cfg.strictCbor rs.staticDhI (decide (rs.suite.sign = .eddsa)) rs.suite.macLen p) :
    msg3Process cfg C c creds rs m3 L ≠ .ub := by
  have hml := (suite_small hs).2
  unfold msg3Process
  refine Verif.Safe.bind_nub Verif.Safe.check_nub fun _ _ => Verif.Safe.bind_nub decodeBstr_nub fun c3 hc3 =>
    Verif.Safe.bind_nub Verif.Safe.check_nub fun _ _ => Verif.Safe.bind_nub dec_nub fun p hp => ?_
  have hb := (decodeBstr_iff.1 hc3).1
  have hh := hm3 c3 p hb (ctxt34Dec_rfc hC (by simp) hth hp)
  have hid := hcfg.idI
  obtain ⟨h1, h2⟩ := split3_safe (eadCap := rs.ead.length) (idCap := cfg.idCredISize) (by omega) hh
  refine Verif.Safe.bind_nub h1 fun sp hsp => ?_
  obtain ⟨⟨w, hw⟩, hsm⟩ := h2 _ hsp
  unfold msg3Auth
  obtain ⟨h3, h4⟩ := retrieve_safe (cfg := cfg) (cap := cfg.credISize) hw (hl.peer rs.staticDhI)
  refine Verif.Safe.bind_nub h3 fun o ho => ?_
  obtain ⟨cred, pk, gI⟩ := o
  have hk := h4 _ ho
  exact Verif.Safe.bind_nub (prk_nub fun h => ⟨hl.y, hk.2 h⟩) fun _ _ =>
    Verif.Safe.bind_nub (ver_nub hC hml (fun h => by simp [isRawInt] at h) hk.1 hsm) fun _ _ =>
    Verif.Safe.bind_nub (th34_nub hth) fun _ _ => Verif.Safe.bind_nub kdf_nub fun _ _ => pure_nub

/-- **C68** (message_4 received) For every message_4. -/
theorem C68_initiator_message_4 (cfg : ECfg) (C : ECrypto) (suite : Suite) (prk th m4 : Bytes) (cap : Nat) :
    msg4Process cfg C suite prk th m4 cap ≠ .ub := by
  unfold msg4Process
  refine Verif.Safe.bind_nub decodeBstr_nub fun _ _ => Verif.Safe.bind_nub Verif.Safe.check_nub fun _ _ =>
    Verif.Safe.bind_nub dec_nub fun _ _ => ?_
  unfold ead4Of
  split
  · exact decodeBstr_nub
  · exact ok_nub

/-- **C68** (message_4 created) If EAD_4 and a tag of 16 bytes fit EAD_SIZE + 8. -/
theorem C68_responder_message_4_partial (cfg : ECfg) (C : ECrypto) (ead4 : Bytes) (suite : Suite) (prk th : Bytes) (cap : Nat)
    (hcfg : CfgOk cfg) (hl : ead4.length + 8 ≤ cfg.eadSize) : msg4Gen cfg C ead4 suite prk th cap ≠ .ub := by
  unfold msg4Gen
  have h32 := hcfg.ead
  refine Verif.Safe.bind_nub (ctxtGen_nub (fun h => absurd rfl h) h32 fun p hp => ?_) fun _ _ => encodeBstr_nub
  unfold plaintextGen at hp
  obtain ⟨_, _, hp⟩ := R.bind_eq_ok.1 hp
  obtain ⟨_, _, hp⟩ := R.bind_eq_ok.1 hp
  rw [byteArrayAppend_ok hp, if_neg (by simp)]
  have : suite.aead.tagLen ≤ 16 := by cases suite.aead <;> decide
  simp only [List.nil_append, ECfg.plaintext4Size]
  omega

/-- **C68** The exporter functions, for every argument. -/
theorem C68_exporter (cfg : ECfg) (C : ECrypto) (prk ctx : Bytes) (label L : Nat) :
    prkOut2exporter cfg C prk L ≠ .ub ∧ prkOutUpdate cfg C prk ctx L ≠ .ub ∧ edhocExporter cfg C label prk L ≠ .ub :=
  ⟨kdf_nub, kdf_nub, kdf_nub⟩

/-! ### whole runs -/

theorem Safe.tx_nub {m : Bytes} {n : Net} : (netTx m n).1 ≠ .ub := by
  unfold netTx; split <;> exact (by intro h; cases h)
theorem Safe.ead_nub {m : Bytes} {n : Net} : (netEad m n).1 ≠ .ub := by
  unfold netEad; split <;> exact (by intro h; cases h)
theorem Safe.rx_nub {cap : Nat} {n : Net} : (netRx cap n).1 ≠ .ub := by
  unfold netRx
  split
  · intro h; cases h
  · intro h; cases h
  · split <;> (intro h; cases h)
theorem Safe.rx_ok {cap : Nat} {m : Bytes} {n n' : Net} (h : netRx cap n = (.ok m, n')) :
    ∃ q, n.rxq = .inr m :: q ∧ n'.rxq = q := by
  unfold netRx at h
  split at h
  · cases h
  · cases h
  · next m' q hq =>
    split at h
    · simp only [Prod.mk.injEq, R.ok.injEq] at h
      exact ⟨q, by rw [hq, h.1], by rw [← h.2]⟩
    · cases h
theorem Safe.tx_rxq {m : Bytes} {n : Net} : (netTx m n).2.rxq = n.rxq := by
  unfold netTx; split <;> rfl
theorem Safe.ead_rxq {m : Bytes} {n : Net} : (netEad m n).2.rxq = n.rxq := by
  unfold netEad; split <;> rfl

theorem Safe.msg1_ok {cfg : ECfg} {C : ECrypto} {c : ICtx} {m1 h1 : Bytes} {suite : Suite}
    (h : msg1Gen cfg C c = .ok (m1, suite, h1)) : h1 = C.hash m1 ∧ ∃ n, getSuite n = .ok suite := by
  unfold msg1Gen at h
  obtain ⟨_, _, h⟩ := R.bind_eq_ok.1 h
  obtain ⟨_, _, h⟩ := R.bind_eq_ok.1 h
  obtain ⟨_, _, h⟩ := R.bind_eq_ok.1 h
  obtain ⟨s, hs, h⟩ := R.bind_eq_ok.1 h
  rw [R.pure_eq] at h
  simp only [R.ok.injEq, Prod.mk.injEq] at h
  obtain ⟨rfl, rfl, rfl⟩ := h
  exact ⟨rfl, _, hs⟩

theorem Safe.msg2_ok {cfg : ECfg} {C : ECrypto} (hC : C.Lawful) {c : RCtx} {m1 m2 ead : Bytes} {cap : Nat} {rs : RState}
    (h : msg2Gen cfg C c m1 cap ead = .ok (m2, rs)) : rs.th3.length = 32 ∧ ∃ n, getSuite n = .ok rs.suite := by
  unfold msg2Gen at h
  obtain ⟨p, _, h⟩ := R.bind_eq_ok.1 h
  split at h
  · cases h
  · unfold msg2Build at h
    obtain ⟨s, hs, h⟩ := R.bind_eq_ok.1 h
    rw [authType_eq] at h
    simp only at h
    obtain ⟨_, _, h⟩ := R.bind_eq_ok.1 h
    obtain ⟨_, _, h⟩ := R.bind_eq_ok.1 h
    obtain ⟨_, _, h⟩ := R.bind_eq_ok.1 h
    obtain ⟨_, _, h⟩ := R.bind_eq_ok.1 h
    obtain ⟨_, _, h⟩ := R.bind_eq_ok.1 h
    obtain ⟨th3, ht, h⟩ := R.bind_eq_ok.1 h
    rw [R.pure_eq] at h
    simp only [R.ok.injEq, Prod.mk.injEq] at h
    obtain ⟨-, rfl⟩ := h
    exact ⟨th34_len hC ht, _, hs⟩

theorem Safe.itail_nub {cfg : ECfg} {C : ECrypto} {suite : Suite} {g : R (IState × M3Out)} {n : Net} (hg : g ≠ .ub) :
    ((M.lift g >>= fun (x : IState × M3Out) => (do
      netEad x.1.ead
      netTx x.2.msg
      if cfg.message4 then do
        initiatorMsg4 cfg C suite x.1 x.2
        pure ⟨x.1.cR, x.2.prkOut, x.2.th4, x.1.prk4e3m⟩
      else pure ⟨x.1.cR, x.2.prkOut, x.2.th4, x.1.prk4e3m⟩ : M Net IOut)) n).1 ≠ .ub := by
  refine Verif.Safe.mlift_nub hg fun y _ => ?_
  refine Verif.Safe.mbind_nub ead_nub fun _ _ _ => Verif.Safe.mbind_nub tx_nub fun _ _ _ => ?_
  split
  · refine Verif.Safe.mbind_nub ?_ fun _ _ _ => ok_nub
    unfold initiatorMsg4
    exact Verif.Safe.mbind_nub rx_nub fun _ _ _ => Verif.Safe.mlift_nub (C68_initiator_message_4 _ _ _ _ _ _ _) fun _ _ => ead_nub
  · exact ok_nub

/-- **C68** A run of the initiator: whatever message_2 and message_4 are delivered, and whatever the callbacks answer, if
PLAINTEXT_2 is readable. -/
theorem C68_initiator_partial (cfg : ECfg) (C : ECrypto) (c : ICtx) (creds : List Cred) (crBuf : Bytes) (L : Nat) (n : Net)
    (hcfg : CfgOk cfg) (hC : C.Lawful) (hl : InitOk cfg C c creds crBuf)
    (hm2 : ∀ m1 suite h1 m2 q gY ct gXY, msg1Gen cfg C c = .ok (m1, suite, h1) → n.rxq = .inr m2 :: q →
      OneBstr cfg.strictCbor (gY ++ ct) m2 → gY.length = 32 → C.dh suite.ecdh c.x gY = some gXY →
      Harmless2 cfg.strictCbor (decide (c.method = 1 ∨ c.method = 3)) (decide (suite.sign = .eddsa)) suite.macLen
        (EdhocSafe.plaintext2 C.hash C.hmac m1 gY gXY ct)) :
    (initiatorRun cfg C c creds crBuf L n).1 ≠ .ub := by
  unfold initiatorRun
  refine Verif.Safe.mlift_nub (C68_message_1 cfg C c hl.suites) fun x hx => ?_
  obtain ⟨m1, suite, h1⟩ := x
  obtain ⟨hh, k, hs⟩ := msg1_ok hx
  dsimp only
  refine Verif.Safe.mbind_nub tx_nub fun _ n1 e1 => Verif.Safe.mbind_nub rx_nub fun m2 n2 e2 => ?_
  obtain ⟨q, e3, _⟩ := rx_ok e2
  have e4 : n1.rxq = n.rxq := by rw [← tx_rxq (m := m1) (n := n), e1]
  rw [e4] at e3
  have h3 := C68_initiator_message_2_partial cfg C c creds suite m1 m2 crBuf (List.replicate cfg.eadSize 0) L k hcfg hC hl hs
    fun gY ct gXY => hm2 _ _ _ _ _ gY ct gXY hx e3
  rw [← hh] at h3
  exact itail_nub h3

/-- **C68** A run of the responder: whatever the callbacks answer, if the G_X of message_1 has at least 32 bytes and what
message_3 decrypts to is readable. -/
theorem C68_responder_partial (cfg : ECfg) (C : ECrypto) (c : RCtx) (creds : List Cred) (cICap L : Nat) (n : Net)
    (hcfg : CfgOk cfg) (hC : C.Lawful) (hl : RespOk cfg C c creds)
    (hm1 : ∀ m1 q method su gX cI e, n.rxq = .inr m1 :: q → Message1 cfg.strictCbor method su gX cI e m1 → 32 ≤ gX.length)
    (hm3 : ∀ m1 m2 rs m3 q ct p, n.rxq = .inr m1 :: .inr m3 :: q →
      msg2Gen cfg C c m1 cICap (List.replicate cfg.eadSize 0) = .ok (m2, rs) → OneBstr cfg.strictCbor ct m3 →
      C.aeadDec (EdhocSpec.kdf C.hmac rs.prk3e2m 3 rs.th3 16) (EdhocSpec.kdf C.hmac rs.prk3e2m 4 rs.th3 13)
        (EdhocSpec.encStructure rs.th3) rs.suite.aead.tagLen ct = some p →
      Harmless3 cfg.strictCbor rs.staticDhI (decide (rs.suite.sign = .eddsa)) rs.suite.macLen p) :
    (responderRun cfg C c creds cICap L n).1 ≠ .ub := by
  unfold responderRun
  refine Verif.Safe.mbind_nub rx_nub fun m1 n1 e1 => ?_
  obtain ⟨q, e2, e2'⟩ := rx_ok e1
  refine Verif.Safe.mlift_nub (C68_responder_message_1_partial cfg C c creds m1 _ cICap hcfg hC hl
    fun method su gX cI e => hm1 _ _ method su gX cI e e2) fun x hx => ?_
  obtain ⟨m2, rs⟩ := x
  obtain ⟨hth, k, hs⟩ := msg2_ok hC hx
  refine Verif.Safe.mbind_nub ead_nub fun _ n2 e3 => Verif.Safe.mbind_nub tx_nub fun _ n3 e4 =>
    Verif.Safe.mbind_nub rx_nub fun m3 n4 e5 => ?_
  obtain ⟨q', e6, _⟩ := rx_ok e5
  have e7 : n2.rxq = n1.rxq := by rw [← ead_rxq (m := rs.ead) (n := n1), e3]
  have e8 : n3.rxq = n2.rxq := by rw [← tx_rxq (m := m2) (n := n2), e4]
  have e9 : n.rxq = .inr m1 :: .inr m3 :: q' := by rw [e2, ← e2', ← e7, ← e8, e6]
  refine Verif.Safe.mlift_nub (C68_responder_message_3_partial cfg C c creds rs m3 L k hcfg hC hl hs hth
    fun ct p => hm3 _ _ _ _ _ ct p e9 hx) fun o _ => ?_
  refine Verif.Safe.mbind_nub ead_nub fun _ _ _ => ?_
  split
  · next h4 =>
    refine Verif.Safe.mbind_nub ?_ fun _ _ _ => ok_nub
    unfold responderMsg4
    exact Verif.Safe.mlift_nub (C68_responder_message_4_partial cfg C _ _ _ _ _ hcfg (hl.ead4 h4)) fun _ _ => tx_nub
  · exact ok_nub

end Verif.Edhoc
