import Verif.Lemmas.ZcborMsgs
import Verif.Lemmas.CborLemmas
import Verif.Lemmas.EdhocGrammarLemmas
/- The generated encoders. -/
namespace Verif.Zcbor
open Verif Verif.Edhoc Verif.Cbor Verif.EdhocGrammar

/-- `e` appends `bs`, `n` elements, if they fit and there are `k` more backups -/
def Enc (e : E) (bs : Bytes) (k n : Nat) : Prop :=
  ∀ s : ES, s.baks.length + k ≤ s.nb →
    e s = if s.out.length + bs.length ≤ s.cap then some { s with out := s.out ++ bs, ec := s.ec + n } else none

theorem Enc.mono {e : E} {bs : Bytes} {k k' n : Nat} (h : Enc e bs k n) (hk : k ≤ k') : Enc e bs k' n :=
  fun s hs => h s (by omega)

theorem put_enc (b : Bytes) (k : Nat) : Enc (put b) b k 1 := fun _ _ => rfl

/-- `Enc` from a state whose buffer has not overflowed -/
def EncF (e : E) (bs : Bytes) (k n : Nat) : Prop :=
  ∀ s : ES, s.out.length ≤ s.cap → s.baks.length + k ≤ s.nb →
    e s = if s.out.length + bs.length ≤ s.cap then some { s with out := s.out ++ bs, ec := s.ec + n } else none

theorem Enc.f {e : E} {bs : Bytes} {k n : Nat} (h : Enc e bs k n) : EncF e bs k n := fun s _ hs => h s hs

theorem nil_encF (k : Nat) : EncF (fun s => some s) [] k 0 := by
  intro s hc _
  simp [hc]

theorem eAnd_encF {a b : E} {x y : Bytes} {k n m : Nat} (ha : EncF a x k n) (hb : EncF b y k m) :
    EncF (eAnd a b) (x ++ y) k (n + m) := by
  intro s hc hs
  unfold eAnd
  rw [ha s hc hs]
  by_cases h : s.out.length + x.length ≤ s.cap
  · rw [if_pos h]
    simp only
    rw [hb ⟨s.out ++ x, s.cap, s.ec + n, s.baks, s.nb⟩ (by simpa using h) hs]
    simp only [List.length_append, List.append_assoc]
    by_cases h2 : s.out.length + x.length + y.length ≤ s.cap
    · rw [if_pos (by omega), if_pos (by omega), Nat.add_assoc]
    · rw [if_neg (by omega), if_neg (by omega)]
  · rw [if_neg h]
    simp only [List.length_append]
    rw [if_neg (by omega)]

theorem opt_encF {α : Type} {f : α → E} {g : α → Bytes} {k n : Nat} (h : ∀ x, EncF (f x) (g x) k n) (o : Option α) :
    EncF (optEncode f o) (match o with | none => [] | some x => g x) k (match o with | none => 0 | some _ => n) := by
  cases o with
  | none => exact nil_encF k
  | some x => exact h x

theorem seq_encF {α : Type} {f : α → E} {g : α → Bytes} {k : Nat} (h : ∀ x, EncF (f x) (g x) k 1) :
    ∀ l : List α, EncF (seqEncode f l) (l.map g).flatten k l.length
  | [] => nil_encF k
  | x :: l => by
    have := eAnd_encF (h x) (seq_encF h l)
    rw [Nat.add_comm] at this
    exact this

theorem multi_encF {α : Type} {f : α → E} {g : α → Bytes} {k min max : Nat} (h : ∀ x, EncF (f x) (g x) k 1)
    {l : List α} (h1 : min ≤ l.length) (h2 : l.length ≤ max) :
    EncF (multiEncode min max f l) (l.map g).flatten k l.length := by
  intro s hc hs
  unfold multiEncode
  rw [if_pos ⟨h1, h2⟩]
  exact seq_encF h l s hc hs

theorem headLen_small (m : Nat) {n : Nat} (h : n ≤ 23) : (cborHead m n).length = 1 := by
  unfold cborHead
  rw [if_pos (by omega)]
  rfl

/-- a list or a map of at most 23 elements or pairs: its header is one byte from the beginning -/
theorem wrap_encF {major per max : Nat} (hm : max ≤ 23) {body : E} {bs : Bytes} {k n : Nat} (hb : EncF body bs k n)
    (hn : n / per ≤ max) :
    EncF (eAnd (startEncode major max) (eAnd body (endEncode major per max))) (cborHead major (n / per) ++ bs) (k + 1) 1 := by
  intro s hc hs
  have l1 := headLen_small major (n := max) hm
  have l2 := headLen_small major (n := n / per) (by omega)
  unfold eAnd startEncode put
  rw [if_pos (by omega)]
  simp only [List.length_append, l1, l2]
  by_cases h : s.out.length + 1 ≤ s.cap
  · rw [if_pos h]
    simp only
    rw [hb _ (by simpa [l1] using h) (by simp only [List.length_cons]; omega)]
    simp only [List.length_append, l1]
    by_cases h2 : s.out.length + 1 + bs.length ≤ s.cap
    · rw [if_pos h2, if_pos (by omega)]
      unfold endEncode
      simp only [Nat.zero_add]
      rw [if_neg (by omega), l1]
      have e1 : List.drop (s.out.length + 1) (s.out ++ cborHead major max ++ bs) = bs :=
        List.drop_left' (by simp [l1])
      have e2 : List.take s.out.length (s.out ++ cborHead major max ++ bs) = s.out := by
        rw [List.append_assoc]; exact List.take_left' rfl
      rw [e1, e2, List.append_assoc]
    · rw [if_neg h2, if_neg (by omega)]
  · rw [if_neg h, if_neg (by omega)]

theorem list_encF {max : Nat} (hm : max ≤ 23) {body : E} {bs : Bytes} {k n : Nat} (hb : EncF body bs k n) (hn : n ≤ max) :
    EncF (listEncode max body) (cborArr n ++ bs) (k + 1) 1 := by
  have := wrap_encF (major := 4) (per := 1) hm hb (by rw [Nat.div_one]; exact hn)
  rw [Nat.div_one] at this
  exact this

theorem map_encF {max : Nat} (hm : max ≤ 23) {body : E} {bs : Bytes} {k n : Nat} (hb : EncF body bs k n) (hn : n / 2 ≤ max) :
    EncF (mapEncode max body) (cborMap (n / 2) ++ bs) (k + 1) 1 :=
  wrap_encF hm hb hn

theorem entry_enc {e : E} {bs : Bytes} {k n m ec : Nat} (h : EncF e bs k m) (hn : k + 2 ≤ n) (cap : Nat) :
    entryE n ec e cap = if bs.length ≤ cap then some bs else none := by
  unfold entryE
  rw [h _ (by simp) (by simp only [List.length_nil]; omega)]
  simp only [List.length_nil, Nat.zero_add, List.nil_append]
  by_cases hc : bs.length ≤ cap
  · rw [if_pos hc, if_pos hc]
  · rw [if_neg hc, if_neg hc]

/-! ### primitives, as data items -/

theorem uint_encF (n k : Nat) : EncF (uintEncode n) (enc (.uint n)) k 1 := by rw [← cborUint_eq]; exact (put_enc _ k).f
theorem int_encF (i : Int) (k : Nat) : EncF (intEncode i) (enc (.int i)) k 1 := by rw [← cborInt_eq]; exact (put_enc _ k).f
theorem bstr_encF (b : Bytes) (k : Nat) : EncF (bstrEncode b) (enc (.bstr b)) k 1 := by rw [← cborBstr_eq]; exact (put_enc _ k).f
theorem tstr_encF (b : Bytes) (k : Nat) : EncF (tstrEncode b) (enc (.tstr b)) k 1 := by rw [← cborTstr_eq]; exact (put_enc _ k).f
theorem null_encF (k : Nat) : EncF nilPut (enc .null) k 1 := by
  rw [show enc .null = cborNil by simp [enc, cborNil]]; exact (put_enc _ k).f

theorem intBstr_encF (v : Int ⊕ Bytes) (k : Nat) : EncF (encIntBstr v) (enc (bstrInt v)) k 1 := by
  cases v with
  | inl i => exact int_encF i k
  | inr b => exact bstr_encF b k

theorem intTstr_encF (v : Int ⊕ Bytes) (k : Nat) : EncF (encIntTstr v) (enc (intTstr v)) k 1 := by
  cases v with
  | inl i => exact int_encF i k
  | inr b => exact tstr_encF b k

/-- one item as a sequence -/
theorem one_encF {e : E} {i : Item} {k : Nat} (h : EncF e (enc i) k 1) : EncF e (encList [i]) k [i].length := by
  have : encList [i] = enc i := by simp [encList]
  rw [this]; exact h

theorem cons_encF {a b : E} {i : Item} {l : List Item} {k : Nat} (ha : EncF a (enc i) k 1) (hb : EncF b (encList l) k l.length) :
    EncF (eAnd a b) (encList (i :: l)) k (i :: l).length := by
  have := eAnd_encF ha hb
  rw [Nat.add_comm] at this
  rw [encList]
  exact this

theorem arr_encF {max : Nat} (hm : max ≤ 23) {body : E} {l : List Item} {k : Nat} (hb : EncF body (encList l) k l.length)
    (hn : l.length ≤ max) : EncF (listEncode max body) (enc (.arr l)) (k + 1) 1 := by
  rw [← cborArr_eq]
  exact list_encF hm hb hn

theorem encList_append : ∀ l m : List Item, encList (l ++ m) = encList l ++ encList m
  | [], m => by simp [encList]
  | i :: l, m => by simp [encList, encList_append l m]

theorem app_encF {a b : E} {l m : List Item} {k : Nat} (ha : EncF a (encList l) k l.length) (hb : EncF b (encList m) k m.length) :
    EncF (eAnd a b) (encList (l ++ m)) k (l ++ m).length := by
  rw [encList_append, List.length_append]
  exact eAnd_encF ha hb

theorem encList_ints (l : List Int) : encList (l.map Item.int) = (l.map fun i => enc (.int i)).flatten := by
  induction l with
  | nil => simp [encList]
  | cons i l ih => simp [encList, ih]

/-- SUITES_I has 2 to 10 suites if it is a list -/
def SuitesLen : List Int ⊕ Int → Prop
  | .inl l => 2 ≤ l.length ∧ l.length ≤ 10
  | .inr _ => True

theorem suites_encF {v : List Int ⊕ Int} (h : SuitesLen v) (k : Nat) : EncF (encSuites v) (enc (suites v)) (k + 1) 1 := by
  cases v with
  | inl l =>
    refine arr_encF (by omega) ?_ (by simpa using h.2)
    rw [encList_ints, List.length_map]
    exact multi_encF (fun x => int_encF x k) h.1 h.2
  | inr i => exact int_encF i (k + 1)

theorem suites_refused {l : List Int} (h : ¬ (2 ≤ l.length ∧ l.length ≤ 10)) (s : ES) : encSuites (.inl l) s = none := by
  show eAnd (startEncode 4 10) (eAnd (multiEncode 2 10 intEncode l) (endEncode 4 1 10)) s = none
  unfold eAnd
  cases startEncode 4 10 s with
  | none => rfl
  | some s' =>
    simp only
    unfold multiEncode
    rw [if_neg h]

theorem opt_items {α : Type} {f : α → E} {g : α → Item} {k : Nat} (h : ∀ x, EncF (f x) (enc (g x)) k 1) (o : Option α) :
    EncF (optEncode f o) (encList (o.toList.map g)) k (o.toList.map g).length := by
  cases o with
  | none => exact nil_encF k
  | some x => exact one_encF (h x)

theorem ent_encF {α : Type} {key : Nat} {f : α → E} {g : α → Item} {k : Nat} (h : ∀ x, EncF (f x) (encList [.uint key, g x]) k 2)
    (o : Option α) : EncF (optEncode f o) (encList (ent key g o)) k (ent key g o).length := by
  cases o with
  | none => exact nil_encF k
  | some x => exact h x

theorem kid_encF (v : Int ⊕ Bytes) (k : Nat) : EncF (encKid v) (encList [.uint 4, bstrInt v]) k 2 :=
  cons_encF (uint_encF 4 k) (one_encF (intBstr_encF v k))
theorem entryB_encF (key : Nat) (v : Bytes) (k : Nat) : EncF (encEntry key v) (encList [.uint key, .bstr v]) k 2 :=
  cons_encF (uint_encF key k) (one_encF (bstr_encF v k))
theorem thumb_encF (key : Nat) (v : (Int ⊕ Bytes) × Bytes) (k : Nat) :
    EncF (encThumb key v) (encList [.uint key, algHash v]) (k + 1) 2 := by
  obtain ⟨a, h⟩ := v
  refine cons_encF (uint_encF key _) (one_encF ?_)
  exact arr_encF (by omega) (cons_encF (intTstr_encF a k) (one_encF (bstr_encF h k))) (by simp)

theorem idMap_count_le (m : IdMap) : (idMapEntries m).length / 2 ≤ 9 := by
  rw [idMap_count]
  have : ∀ {α : Type} (o : Option α), cnt o ≤ 1 := by intro α o; cases o <;> simp [cnt]
  have a := this m.kid; have b := this m.x5bag; have c := this m.x5chain; have d := this m.x5t
  have e := this m.x5u; have f := this m.c5b; have g := this m.c5c; have h := this m.c5t; have i := this m.c5u
  omega

theorem idMap_encF (m : IdMap) : EncF (encodeIdCredX m) (enc (.map (idMapEntries m))) 2 1 := by
  rw [← cborMap_eq]
  refine map_encF (k := 1) (by omega) ?_ (idMap_count_le m)
  unfold idMapEntries
  refine app_encF (ent_encF (fun x => kid_encF x 1) _) ?_
  refine app_encF (ent_encF (fun x => entryB_encF 32 x 1) _) ?_
  refine app_encF (ent_encF (fun x => entryB_encF 33 x 1) _) ?_
  refine app_encF (ent_encF (fun x => thumb_encF 34 x 0) _) ?_
  refine app_encF (ent_encF (fun x => entryB_encF 35 x 1) _) ?_
  refine app_encF (ent_encF (fun x => entryB_encF 52 x 1) _) ?_
  refine app_encF (ent_encF (fun x => entryB_encF 53 x 1) _) ?_
  refine app_encF (ent_encF (fun x => thumb_encF 54 x 0) _) ?_
  exact ent_encF (fun x => entryB_encF 55 x 1) _

/-! ### certificates -/

def NoneOn {α : Type} (z : Z α) (g : Bytes → Option (α × Bytes)) : Prop := ∀ s : ZS, g s.pay = none → (z s).1 = none

theorem int_noneOn (L : Lib) : NoneOn (int32Decode L) (zInt32 L.strict) := by
  intro s h
  have h := value_fail (L := L) (s := s) (want := fun m => m == 0 || m == 1)
    (f := fun m v l => if v < 2 ^ 31 then some (if m = 0 then Int.ofNat v else -1 - Int.ofNat v, l) else none) (by
      intro m v l hh hw
      unfold zInt32 at h
      rw [hh] at h
      simp only at h
      split at h
      · split at h
        · cases h
        · split at h
          · cases h
          · rename_i h0 h1
            simp [h0, h1] at hw
      · rename_i hv
        exact if_neg hv)
  unfold int32Decode
  rcases h with h | h <;> rw [h]

theorem str_noneOn (L : Lib) (mt : Nat) : NoneOn (strDecode L mt) (zStr L.strict mt) := by
  intro s h
  have h := value_fail (L := L) (s := s) (want := fun m => m == mt)
    (f := fun _ v l => if v ≤ l.length then some (l.take v, l.drop v) else none) (by
      intro m v l hh hw
      unfold zStr at h
      rw [hh] at h
      simp only at h
      split at h
      · cases h
      · rename_i hv
        by_cases hl : v ≤ l.length
        · exact absurd ⟨by simpa using hw, hl⟩ hv
        · exact if_neg hl)
  unfold strDecode
  rcases h with h | h <;> rw [h]

/-- one step of a chain of primitives -/
theorem chain {α β γ : Type} {z : Z α} {g : Bytes → Option (α × Bytes)} (hs : Succ z g 0) (hn : NoneOn z g) {f : α → Z β}
    {k : α × Bytes → Option γ} {p : β → γ} {b : Bytes} {e : Nat}
    (hf : ∀ x l, ((f x ⟨l, e, [], 0⟩).1.map p) = k (x, l)) :
    ((andThen z f ⟨b, e + 1, [], 0⟩).1.map p) = (g b).bind k := by
  unfold andThen
  cases h : g b with
  | none =>
    have := hn ⟨b, e + 1, [], 0⟩ h
    generalize z ⟨b, e + 1, [], 0⟩ = r at this
    obtain ⟨r1, r2⟩ := r
    simp only at this
    subst this
    rfl
  | some r =>
    obtain ⟨x, l⟩ := r
    rw [hs ⟨b, e + 1, [], 0⟩ x l (by simp) (by simp) h]
    exact hf x l

theorem tstr_succ0 (L : Lib) : Succ (tstrDecode L) (zTstr L.strict) 0 := str_succ L 3 0

/-- the primitives of a certificate, one after the other -/
def certChain (st : Bool) (b : Bytes) : Option CertFields :=
  (zInt32 st b).bind fun r0 => (zInt32 st r0.2).bind fun r1 => (zTstr st r1.2).bind fun r2 =>
  (zInt32 st r2.2).bind fun r3 => (zInt32 st r3.2).bind fun r4 => (zBstr st r4.2).bind fun r5 =>
  (zInt32 st r5.2).bind fun r6 => (zBstr st r6.2).bind fun r7 => (zInt32 st r7.2).bind fun r8 =>
  (zInt32 st r8.2).bind fun r9 => (zBstr st r9.2).bind fun r10 =>
  some ⟨r0.1, r1.1, r2.1, r3.1, r4.1, r5.1, r6.1, r7.1, r8.1, r9.1, r10.1⟩

theorem cert_chain (L : Lib) (b : Bytes) : cborDecodeCert L b = certChain L.strict b := by
  have i := int_succ L 0
  have j := int_noneOn L
  have t := tstr_succ0 L
  have u : NoneOn (tstrDecode L) (zTstr L.strict) := str_noneOn L 3
  have v := bstr_succ0 L
  have w : NoneOn (bstrDecode L) (zBstr L.strict) := str_noneOn L 2
  have : (decodeCert L ⟨b, 11, [], 0⟩).1.map id = certChain L.strict b := by
    unfold decodeCert certChain
    refine chain i j fun x0 l0 => ?_
    refine chain i j fun x1 l1 => ?_
    refine chain t u fun x2 l2 => ?_
    refine chain i j fun x3 l3 => ?_
    refine chain i j fun x4 l4 => ?_
    refine chain v w fun x5 l5 => ?_
    refine chain i j fun x6 l6 => ?_
    refine chain v w fun x7 l7 => ?_
    refine chain i j fun x8 l8 => ?_
    refine chain i j fun x9 l9 => ?_
    refine chain v w fun x10 l10 => ?_
    rfl
  rw [Option.map_id] at this
  exact this

end Verif.Zcbor
