import Verif.Lemmas.MbedX509Lemmas
import Verif.Props.Cert
import Verif.Lemmas.EdhocToy
import Verif.Lemmas.EdhocCborLemmas
/-
C59: X.509 certificates in the configuration with MBEDTLS.
-/
namespace Verif.MbedX509
open Verif Edhoc Asn1 DerSpec

/-- the 32-byte form of a number given by its minimal bytes -/
def pad32 (v : Bytes) : Bytes := List.replicate (32 - v.length) 0 ++ v

/-- the contents of the DER INTEGER -/
def intContent (v : Bytes) : Bytes := if 0x80 ≤ (v.headD 0).toNat then 0 :: v else v

theorem int_eq (v : Bytes) : int v = tlv 0x02 (intContent v) := rfl

theorem intContent_len (v : Bytes) : v.length ≤ (intContent v).length ∧ (intContent v).length ≤ v.length + 1 := by
  unfold intContent; split <;> simp

theorem intContent_last {v : Bytes} (h1 : v.length ≤ 32) (h2 : 32 ≤ (intContent v).length) :
    (intContent v).drop ((intContent v).length - 32) = pad32 v := by
  unfold pad32
  unfold intContent at *
  split
  · rename_i hb
    rw [if_pos hb, List.length_cons] at h2
    rw [List.length_cons]
    by_cases h : v.length = 32
    · rw [h]; simp
    · have : v.length = 31 := by omega
      rw [this]; simp
  · rename_i hb
    rw [if_neg hb] at h2
    have : v.length = 32 := by omega
    rw [this]; simp

/-- one INTEGER of at least 32 bytes -/
theorem deserSign_ok {c v u out : Bytes} {p : Nat} (hv : v.length ≤ 32) (hl : 32 ≤ (intContent v).length)
    (hd : c.drop p = intContent v ++ u) (ho : out.length ≤ 32) :
    deserSign c 32 out (0x02, p, (intContent v).length) = .ok (out ++ pad32 v) := by
  have hlen : pad32 v ≠ [] ∧ (pad32 v).length = 32 := by
    have : (pad32 v).length = 32 := by unfold pad32; rw [List.length_append, List.length_replicate]; omega
    exact ⟨fun h => absurd (h ▸ this : ([] : Bytes).length = 32) (by decide), this⟩
  have h2 : c.drop (p + (intContent v).length - 32) = pad32 v ++ u := by
    rw [show p + (intContent v).length - 32 = p + ((intContent v).length - 32) by omega, ← List.drop_drop, hd,
      List.drop_append_of_le_length (by omega), intContent_last hv hl]
  unfold deserSign
  simp only
  rw [if_pos (show (0x02 : UInt8) = tagInteger from rfl), if_pos (by omega)]
  rw [if_neg (by omega)]
  have := rdSlice_of_drop h2 hlen.1
  rw [hlen.2] at this
  rw [this]
  rfl

theorem rawSig_ok {c r s : Bytes} {x : Crt} (h : At c x.sig (seq (int r ++ int s))) (hr : r.length ≤ 32) (hs : s.length ≤ 32)
    (hr' : 32 ≤ (intContent r).length) (hs' : 32 ≤ (intContent s).length) {junk : Bytes} (hj : junk.length = 64) :
    rawSig c x 32 junk = .ok (pad32 r ++ pad32 s) := by
  rw [int_eq, int_eq] at h
  have hir := intContent_len r
  have his := intContent_len s
  have hp : ∀ v : Bytes, v.length ≤ 32 → (pad32 v).length = 32 := by
    intro v hv; unfold pad32; rw [List.length_append, List.length_replicate]; omega
  have hb : (tlv 2 (intContent r) ++ tlv 2 (intContent s)).length < 2 ^ 32 := by
    have key : ∀ w : Bytes, w.length ≤ 33 → hdr w = 2 := by
      intro w hw; unfold hdr lenBytes; rw [if_pos (by omega)]; rfl
    rw [List.length_append, tlv_length, tlv_length, key _ (by omega), key _ (by omega)]
    omega
  obtain ⟨p1, p2, u1, u2, ht, h1, h2, -⟩ := traverse_two h hb
  unfold rawSig
  rw [ht]
  unfold deserAll
  rw [deserSign_ok hr hr' h1 (by simp), R.ok_bind]
  unfold deserAll
  rw [deserSign_ok hs hs' h2 (by rw [List.nil_append, hp r hr]; omega), R.ok_bind]
  unfold deserAll
  rw [R.ok_bind, List.nil_append, List.drop_of_length_le (by rw [List.length_append, hp r hr, hp s hs]; omega),
    List.append_nil]
  rfl

theorem exportPk_ok {c alg key : Bytes} {x : Crt} (h : At c x.pkRaw (seq (seq alg ++ bits key)))
    (hb : (seq alg ++ bits key).length < 2 ^ 32) (hc : c.length < 2 ^ 32) {cap : Nat} (hk : key.length ≤ cap) :
    exportPk c x cap = .ok key := by
  unfold seq bits at h hb
  obtain ⟨p1, p2, u1, u2, ht, h1, h2, _, _, _, hend, _⟩ := traverse_two h hb
  have hin := h.1
  unfold exportPk
  rw [ht]
  simp only [findPk, tagBitString, List.filter, show ((0x30 : UInt8) == 3) = false from rfl, show ((0x03 : UInt8) == 3) = true from rfl,
    List.getLast?_singleton, Option.map_some]
  rw [rd_of_drop (b := 0) (t := key ++ u2) (by rw [h2]; rfl), R.ok_bind]
  simp only [↓reduceIte]
  rw [List.length_cons] at hend
  have hl : (x.pkRaw.1 + x.pkRaw.2 + 2 ^ 32 - (p2 + 1)) % 2 ^ 32 = key.length := by omega
  rw [hl]
  have h3 : c.drop (p2 + 1) = key ++ u2 := drop_cons (b := 0) (by rw [h2]; rfl)
  by_cases hk0 : key.length = 0
  · rw [if_pos hk0, List.length_eq_zero_iff.1 hk0]; rfl
  · rw [if_neg hk0]
    unfold checkBufferSize
    rw [if_neg (by omega), R.ok_bind]
    exact rdSlice_of_drop h3 (fun h => hk0 (by rw [h]; rfl))

/-! ### Well-formed certificates -/

/-- `pl` is the last common name among the attributes of a name -/
def LastCommonName (l : List (Bool × Nat × Nat)) (pl : Nat × Nat) : Prop :=
  ∃ pre post, l = pre ++ (true, pl) :: post ∧ ∀ a ∈ post, a.1 = false

theorem lastCn_iff {l : List (Bool × Nat × Nat)} {pl : Nat × Nat} : lastCn l = some pl ↔ LastCommonName l pl := by
  have key : ∀ post : List (Bool × Nat × Nat), (∀ a ∈ post, a.1 = false) → post.filter (fun a => a.1) = [] := fun post h =>
    List.filter_eq_nil_iff.2 (fun a ha => by simp [h a ha])
  constructor
  · intro h
    unfold lastCn at h
    induction l with
    | nil => cases h
    | cons a l ih =>
      by_cases hl : l.filter (fun a => a.1) = []
      · rw [List.filter_cons, hl] at h
        split at h
        · rename_i ha
          simp only [List.getLast?_singleton, Option.map_some, Option.some.injEq] at h
          refine ⟨[], l, ?_, fun b hb => ?_⟩
          · rw [← h, List.nil_append, ← ha]
          · have := List.filter_eq_nil_iff.1 hl b hb
            simpa using this
        · cases h
      · have hh : ((l.filter (fun a => a.1)).getLast?).map (fun a => a.2) = some pl := by
          rw [List.filter_cons] at h
          split at h
          · obtain ⟨b, m, hm⟩ := List.exists_cons_of_ne_nil hl
            rw [hm] at h ⊢
            rw [List.getLast?_cons_cons] at h
            exact h
          · exact h
        obtain ⟨pre, post, e, hp⟩ := ih hh
        exact ⟨a :: pre, post, by rw [e]; rfl, hp⟩
  · rintro ⟨pre, post, rfl, hp⟩
    unfold lastCn
    rw [List.filter_append, List.filter_cons_of_pos rfl, key post hp, List.getLast?_append]
    rfl

/-- **C59** Which CA is used: the first of the configured ones whose certificate's last common name is the beginning of what the
received certificate has from the last common name of its issuer on; certificates before it have another name. -/
theorem C59_ca_found {parse : Bytes → Option Crt} {iss root : Bytes} : ∀ {creds : List Cred}, caSearch parse iss creds = .ok root →
    ∃ pre k post y p l name, creds = pre ++ k :: post ∧ root = k.caPk ∧ k.ca ≠ [] ∧ parse k.ca = some y ∧
      LastCommonName y.subject (p, l) ∧ rdSlice k.ca p l = .ok name ∧ name <+: iss ∧
      ∀ j ∈ pre, j.ca = [] ∨ ∃ z q m other, parse j.ca = some z ∧ LastCommonName z.subject (q, m) ∧ rdSlice j.ca q m = .ok other ∧ ¬ other <+: iss
  | [], h => by cases h
  | k :: ks, h => by
    unfold caSearch at h
    split at h
    · rename_i h0
      obtain ⟨pre, k', post, y, p, l, name, e, h1, h2, h3, h4, h5, h6, h7⟩ := C59_ca_found h
      refine ⟨k :: pre, k', post, y, p, l, name, by rw [e]; rfl, h1, h2, h3, h4, h5, h6, ?_⟩
      intro j hj
      rcases List.mem_cons.1 hj with rfl | hj
      · exact .inl (List.length_eq_zero_iff.1 h0)
      · exact h7 j hj
    · rename_i h0
      split at h
      · cases h
      · rename_i y hy
        split at h
        · cases h
        · rename_i p l hcn
          obtain ⟨name, h1, h⟩ := R.bind_eq_ok.1 h
          obtain ⟨b, h2, h⟩ := R.bind_eq_ok.1 h
          have hb : b = true ↔ name <+: iss := by
            unfold nameEq at h2
            split at h2
            · cases h2
              rw [beq_iff_eq, List.prefix_iff_eq_take]
              exact eq_comm
            · rename_i hlen
              split at h2
              · cases h2
              · cases h2
                exact ⟨fun h => (Bool.false_ne_true h).elim, fun h => absurd h.length_le hlen⟩
          split at h
          · rename_i hbt
            simp only [R.pure_eq, R.ok.injEq] at h
            exact ⟨[], k, ks, y, p, l, name, rfl, h.symm, fun e => h0 (by rw [e]; rfl), hy, lastCn_iff.1 hcn, h1, hb.1 hbt, fun j hj => by cases hj⟩
          · rename_i hbt
            obtain ⟨pre, k', post, y', p', l', name', e, g1, g2, g3, g4, g5, g6, g7⟩ := C59_ca_found h
            refine ⟨k :: pre, k', post, y', p', l', name', by rw [e]; rfl, g1, g2, g3, g4, g5, g6, ?_⟩
            intro j hj
            rcases List.mem_cons.1 hj with rfl | hj
            · exact .inr ⟨y, p, l, name, hy, lastCn_iff.1 hcn, h1, fun h => hbt (hb.2 h)⟩
            · exact g7 j hj

/-- **C59** A well-formed certificate `k` with an ECDSA/SHA-256 signature, parsed by mbedTLS as it should be (positions
of TBSCertificate, SubjectPublicKeyInfo and of the signature's bits; a common name in the issuer), whose CA key is
`root`: if both signature integers take 32 bytes of DER contents, the result is what the library says of the
signature (r, s) over TBSCertificate under that key, together with the key of the certificate - whatever is in
the uninitialised buffer.  Missing: shorter integers, for which this is false (`C59_false_short`). -/
theorem C59_wellformed_partial (C : ECrypto) (parse : Bytes → Option Crt) {junk : Bytes} (hj : junk.length = 64) {k : DerSpec.Cert} (hk : k.WF)
    {x : Crt} (hx : parse k.der = some x) (h1 : x.ecdsa = true) (h2 : x.hashLen = some 32)
    (htbs : At k.der x.tbs k.tbs) (hsig : At k.der x.sig (seq (int k.r ++ int k.s))) (hpk : At k.der x.pkRaw (seq (seq k.keyAlg ++ bits k.pk)))
    (hr : 32 ≤ (intContent k.r).length) (hs : 32 ≤ (intContent k.s).length)
    {pl : Nat × Nat} (hcn : LastCommonName x.issuer pl) {creds : List Cred} {root : Bytes} (hroot : caPkGet parse creds (k.der.drop pl.1) = .ok root)
    {v : Bool} (hv : C.verify .es256 root k.tbs (pad32 k.r ++ pad32 k.s) = some v) {pkCap : Nat} (hcap : 65 ≤ pkCap) :
    certX509 C parse junk k.der creds pkCap = .ok (v, k.pk) := by
  have hcn := lastCn_iff.2 hcn
  unfold certX509
  rw [hx]
  simp only [sigAlgCheck, h1, h2, issuerAt, hcn, Bool.true_eq_false, ↓reduceIte]
  rw [R.ok_bind, R.ok_bind, hroot, R.ok_bind, rawSig_ok hsig hk.r.2.2 hk.s.2.2 hr hs hj, R.ok_bind, htbs.rd, R.ok_bind]
  have hvs : verifySig C .es256 root k.tbs (pad32 k.r ++ pad32 k.s) = .ok v := by
    unfold verifySig
    rw [if_neg (by simp), hv]
  rw [hvs, R.ok_bind, exportPk_ok hpk ?_ hk.size (Nat.le_trans hk.pk hcap), R.ok_bind]
  · rfl
  · have := hpk.len
    have := hpk.1
    have hsz := hk.size
    unfold seq at this ⊢
    have e := tlv_length 48 (tlv 48 k.keyAlg ++ bits k.pk)
    rw [‹x.pkRaw.2 = _›] at this
    unfold seq at this
    omega

/-! ### Short integers -/

theorem short_byte {c : Bytes} {p n : Nat} {content u w : Bytes} (hd : c.drop p = content ++ u) (hl : content.length = n)
    (hlt : n < 32) (hn0 : 0 < n) (hw : (c.take p).reverse = (lenBytes n).reverse ++ w) (h32 : 32 ≤ p + n) :
    ((c.drop (p + n - 32)).take 32)[31 - n]? = some (UInt8.ofNat n) := by
  have hp : 0 < p := by omega
  have hlb : lenBytes n = [UInt8.ofNat n] := by unfold lenBytes; rw [if_pos (by omega)]
  rw [hlb] at hw
  have hr := congrArg List.reverse hw
  rw [List.reverse_reverse] at hr
  simp only [List.reverse_append, List.reverse_reverse] at hr
  rw [List.getElem?_take, if_pos (by omega), List.getElem?_drop, show p + n - 32 + (31 - n) = p - 1 by omega]
  have hlen : w.length = p - 1 ∨ c.length < p := by
    have := congrArg List.length hr
    rw [List.length_take, List.length_append, List.length_reverse, List.length_singleton] at this
    omega
  rcases hlen with hlen | hlen
  · have : c[p - 1]? = (c.take p)[p - 1]? := by rw [List.getElem?_take, if_pos (by omega)]
    rw [this, hr, List.getElem?_append_right (by rw [List.length_reverse]; omega), List.length_reverse, hlen]
    simp
  · exfalso
    have h0 := congrArg List.length hd
    rw [List.length_drop, List.length_append] at h0
    omega

/-- what is stored for r when the contents of its INTEGER have fewer than 32 bytes is not r -/
theorem rawSig_short {c r s : Bytes} {x : Crt} (h : At c x.sig (seq (int r ++ int s))) (hr : Scalar r) (hs : s.length ≤ 32)
    (hr' : (intContent r).length < 32) {junk sig : Bytes} (hok : rawSig c x 32 junk = .ok sig) :
    sig.take 32 ≠ pad32 r := by
  rw [int_eq, int_eq] at h
  have hir := intContent_len r
  have his := intContent_len s
  have hb : (tlv 2 (intContent r) ++ tlv 2 (intContent s)).length < 2 ^ 32 := by
    have key : ∀ w : Bytes, w.length ≤ 33 → hdr w = 2 := by
      intro w hw; unfold hdr lenBytes; rw [if_pos (by omega)]; rfl
    rw [List.length_append, tlv_length, tlv_length, key _ (by omega), key _ (by omega)]
    omega
  obtain ⟨p1, p2, u1, u2, ht, h1, h2, ⟨w, hw⟩, -⟩ := traverse_two h hb
  unfold rawSig at hok
  obtain ⟨out, ho, hok⟩ := R.bind_eq_ok.1 hok
  rw [ht] at ho
  unfold deserAll at ho
  obtain ⟨o1, ho1, ho⟩ := R.bind_eq_ok.1 ho
  unfold deserSign at ho1
  simp only at ho1
  rw [if_pos (show (0x02 : UInt8) = tagInteger from rfl), if_pos (by simp)] at ho1
  split at ho1
  · cases ho1
  · rename_i h32
    obtain ⟨b, hb1, hb2⟩ := R.bind_eq_ok.1 ho1
    unfold rdSlice at hb1
    split at hb1
    · rename_i hle
      obtain rfl := R.ok.inj hb1
      rw [List.nil_append, R.pure_eq] at hb2
      obtain rfl := R.ok.inj hb2
      -- the first 32 bytes of the result are these
      have hl32 : ((c.drop (p1 + (intContent r).length - 32)).take 32).length = 32 := by
        rw [List.length_take, List.length_drop]; omega
      have hpre : ∃ t, out = (c.drop (p1 + (intContent r).length - 32)).take 32 ++ t := by
        unfold deserAll at ho
        obtain ⟨o2, ho2, ho⟩ := R.bind_eq_ok.1 ho
        unfold deserAll at ho
        obtain rfl := R.ok.inj ho
        unfold deserSign at ho2
        simp only at ho2
        rw [if_pos (show (0x02 : UInt8) = tagInteger from rfl)] at ho2
        split at ho2
        · split at ho2
          · cases ho2
          · obtain ⟨b', hb', ho2⟩ := R.bind_eq_ok.1 ho2
            exact ⟨b', (R.ok.inj ho2).symm⟩
        · exact ⟨[], by rw [List.append_nil]; exact (R.ok.inj ho2).symm⟩
      obtain ⟨t, rfl⟩ := hpre
      obtain rfl := R.ok.inj hok
      intro heq
      rw [List.append_assoc, List.take_append_of_le_length (by omega), List.take_of_length_le (by omega)] at heq
      have h0 : 0 < (intContent r).length := by
        have := List.length_pos_iff.2 hr.1
        omega
      have hb := short_byte h1 rfl hr' h0 hw (by omega)
      rw [heq] at hb
      unfold pad32 at hb
      have hlr : (intContent r).length ≤ 31 := by omega
      rw [List.getElem?_append_left (by rw [List.length_replicate]; omega), List.getElem?_replicate, if_pos (by omega)] at hb
      have := congrArg UInt8.toNat (Option.some.inj hb)
      rw [ofNat_toNat'] at this
      rw [show (0 : UInt8).toNat = 0 from rfl] at this
      omega
    · cases hb1

theorem caPkGet_mem {parse : Bytes → Option Crt} {creds : List Cred} {mem root : Bytes} (h : caPkGet parse creds mem = .ok root) :
    ∃ k ∈ creds, k.caPk = root := by
  have hs : ∀ l : List Cred, caSearch parse mem l = .ok root → ∃ k ∈ l, k.caPk = root := by
    intro l
    induction l with
    | nil => intro h; cases h
    | cons k ks ih =>
      intro h
      have rest : caSearch parse mem ks = .ok root → ∃ k' ∈ k :: ks, k'.caPk = root := fun h => by
        obtain ⟨k', h1, h2⟩ := ih h
        exact ⟨k', List.mem_cons_of_mem _ h1, h2⟩
      unfold caSearch at h
      split at h
      · exact rest h
      · split at h
        · cases h
        · split at h
          · cases h
          · obtain ⟨_, _, h⟩ := R.bind_eq_ok.1 h
            obtain ⟨eq, _, h⟩ := R.bind_eq_ok.1 h
            split at h
            · exact ⟨k, List.mem_cons_self .., R.ok.inj h⟩
            · exact rest h
  unfold caPkGet at h
  split at h
  · rename_i k
    split at h
    · split at h
      · cases h
      · exact ⟨k, List.mem_cons_self .., R.ok.inj h⟩
    · exact hs _ h
  · exact hs _ h

/-- **C59_false** A certificate whose signature value r needs fewer than 32 bytes in DER (one in 256 signatures; the same
happens with s): the string the code verifies in place of the signature does not begin with r, because the code takes the
bytes in front of the integer - its length and tag - for its leading bytes.  The certificate is not accepted, except if this
other string happens to be a signature of the same data under the key of a CA. -/
theorem C59_false_short (C : ECrypto) (parse : Bytes → Option Crt) (junk : Bytes) {k : DerSpec.Cert} (hk : k.WF)
    {x : Crt} (hx : parse k.der = some x) (h2 : x.hashLen = some 32)
    (hsig : At k.der x.sig (seq (int k.r ++ int k.s))) (hr : (intContent k.r).length < 32) (creds : List Cred)
    (hv : ∀ cr ∈ creds, ∀ m sig, rdSlice k.der x.tbs.1 x.tbs.2 = .ok m → rawSig k.der x 32 junk = .ok sig →
      sig.take 32 ≠ pad32 k.r → C.verify .es256 cr.caPk m sig ≠ some true)
    (pkCap : Nat) (key : Bytes) : certX509 C parse junk k.der creds pkCap ≠ .ok (true, key) := by
  intro h
  unfold certX509 at h
  rw [hx] at h
  simp only at h
  obtain ⟨unit, hu, h⟩ := R.bind_eq_ok.1 h
  obtain ⟨iss, _, h⟩ := R.bind_eq_ok.1 h
  obtain ⟨root, hroot, h⟩ := R.bind_eq_ok.1 h
  obtain ⟨sig, hsg, h⟩ := R.bind_eq_ok.1 h
  obtain ⟨m, hm, h⟩ := R.bind_eq_ok.1 h
  obtain ⟨v, hvs, h⟩ := R.bind_eq_ok.1 h
  obtain ⟨pk, _, h⟩ := R.bind_eq_ok.1 h
  have hu32 : unit = 32 := by
    unfold sigAlgCheck at hu
    rw [h2] at hu
    split at hu
    · cases hu
    · exact (R.ok.inj hu).symm
  rw [hu32] at hsg
  have hvt : v = true := by
    have := R.ok.inj h
    exact (Prod.mk.inj this).1
  rw [hvt] at hvs
  have hacc : C.verify .es256 root m sig = some true := by
    unfold verifySig at hvs
    rw [if_neg (by simp)] at hvs
    split at hvs
    · rename_i b hb; rw [hb]; exact congrArg some (R.ok.inj hvs)
    · cases hvs
  obtain ⟨cr, hmem, rfl⟩ := caPkGet_mem hroot
  exact hv cr hmem m sig hm hsg (rawSig_short hsig hk.r hk.s.2.2 hr hsg) hacc

/-! ### No common name, other hashes -/

/-- **C59_false** A received certificate (of any size, not yet authenticated) that mbedTLS parses and whose issuer has no
common name makes the code dereference a NULL pointer, in every configuration. -/
theorem C59_false_no_cn (C : ECrypto) (parse : Bytes → Option Crt) (junk c : Bytes) (creds : List Cred) (pkCap : Nat) {x : Crt}
    (hx : parse c = some x) (h1 : x.ecdsa = true) (h2 : x.hashLen.isSome = true) (h3 : ∀ a ∈ x.issuer, a.1 = false) :
    certX509 C parse junk c creds pkCap = .ub := by
  have hcn : lastCn x.issuer = none := by
    unfold lastCn
    rw [List.filter_eq_nil_iff.2 (fun a ha => by rw [h3 a ha]; simp)]
    rfl
  obtain ⟨n, hn⟩ := Option.isSome_iff_exists.1 h2
  unfold certX509
  rw [hx]
  simp only [sigAlgCheck, h1, hn, issuerAt, hcn, Bool.true_eq_false, ↓reduceIte]
  rfl

/-- **C59_false** With SHA-384 in the signature algorithm the 64 bytes given to the verification are 48 bytes ending
with r and 16 bytes of uninitialised memory; s is not used at all. -/
theorem C59_false_hash {c r s : Bytes} {x : Crt} (h : At c x.sig (seq (int r ++ int s))) (hr : r.length ≤ 32) (hs : s.length ≤ 32)
    (hpos : 48 ≤ x.sig.1) :
    ∃ b : Bytes, b.length = 48 ∧ ∀ junk, rawSig c x 48 junk = .ok (b ++ junk.drop 48) := by
  rw [int_eq, int_eq] at h
  have hir := intContent_len r
  have his := intContent_len s
  have hb : (tlv 2 (intContent r) ++ tlv 2 (intContent s)).length < 2 ^ 32 := by
    have key : ∀ w : Bytes, w.length ≤ 33 → hdr w = 2 := by
      intro w hw; unfold hdr lenBytes; rw [if_pos (by omega)]; rfl
    rw [List.length_append, tlv_length, tlv_length, key _ (by omega), key _ (by omega)]
    omega
  obtain ⟨p1, p2, u1, u2, ht, h1, h2, _, _, hp1, hend, hmid⟩ := traverse_two h hb
  have hl := congrArg List.length h1
  rw [List.length_drop, List.length_append] at hl
  have hin := h.1
  have hle : p1 + (intContent r).length ≤ c.length := by omega
  have hbl : ((c.drop (p1 + (intContent r).length - 48)).take 48).length = 48 := by
    rw [List.length_take, List.length_drop]; omega
  refine ⟨(c.drop (p1 + (intContent r).length - 48)).take 48, hbl, fun junk => ?_⟩
  unfold rawSig
  rw [ht]
  unfold deserAll deserSign
  simp only
  rw [if_pos (show (0x02 : UInt8) = tagInteger from rfl), if_pos (by simp), if_neg (by omega)]
  unfold rdSlice
  rw [if_pos (by omega), R.ok_bind, R.pure_eq, R.ok_bind]
  unfold deserAll deserSign
  simp only
  rw [if_pos (show (0x02 : UInt8) = tagInteger from rfl), List.nil_append, if_neg (by omega), R.pure_eq, R.ok_bind]
  unfold deserAll
  rw [R.ok_bind, hbl]
  rfl

/-! ### Memory -/

theorem getLen_ge (c : Bytes) (pos len : Nat) : pos ≤ (getLen c pos len).1 := by
  have key : ∀ (P : Prop) [Decidable P] (a b : Nat × Nat), pos ≤ a.1 → pos ≤ b.1 → pos ≤ (if P then a else b).1 := by
    intro P _ a b ha hb; split <;> assumption
  unfold getLen
  simp only []
  repeat' (first | apply key | (apply Nat.le_add_right) | exact Nat.le_refl _)

theorem libElems_range {c : Bytes} {stop : Nat} : ∀ {fuel pos : Nat}, ∀ e ∈ libElems c stop fuel pos, pos ≤ e.2.1 ∧ e.2.1 + e.2.2 ≤ stop := by
  intro fuel
  induction fuel with
  | zero => intro pos e he; simp [libElems] at he
  | succ n ih =>
    intro pos e he
    unfold libElems at he
    split at he
    · split at he
      · cases he
      · rename_i p l hpl
        have hb : pos ≤ p ∧ p + l ≤ stop := by
          unfold libLen at hpl
          simp only at hpl
          split at hpl
          · cases hpl
          · split at hpl
            · rename_i hle
              have hge := getLen_ge (c.take stop) (pos + 1) 0
              have e := Option.some.inj hpl
              rw [e] at hle hge
              simp only at hle hge
              omega
            · cases hpl
        rcases List.mem_cons.1 he with rfl | he
        · exact hb
        · have := ih e he
          omega
    · cases he

theorem libTraverse_range {c : Bytes} {pl : Nat × Nat} : ∀ e ∈ libTraverse c pl, pl.1 ≤ e.2.1 ∧ e.2.1 + e.2.2 ≤ pl.1 + pl.2 := by
  intro e he
  unfold libTraverse at he
  simp only at he
  split at he
  · split at he
    · cases he
    · rename_i p l hpl
      split at he
      · have := libElems_range e he
        unfold libLen at hpl
        simp only at hpl
        split at hpl
        · cases hpl
        · split at hpl
          · have hge := getLen_ge (c.take (pl.1 + pl.2)) (pl.1 + 1) 0
            rw [Option.some.inj hpl] at hge
            simp only at hge
            omega
          · cases hpl
      · cases he
  · cases he

theorem deserAll_safe {c : Bytes} {unit : Nat} : ∀ {es : List (UInt8 × Nat × Nat)} {out : Bytes},
    (∀ e ∈ es, unit ≤ e.2.1 + e.2.2 ∧ e.2.1 + e.2.2 ≤ c.length) → ∃ o, deserAll c unit out es = .ok o := by
  intro es
  induction es with
  | nil => intro out _; exact ⟨out, rfl⟩
  | cons e es ih =>
    intro out h
    have he := h e (by simp)
    have : ∃ o, deserSign c unit out e = .ok o := by
      unfold deserSign
      split
      · split
        · rw [if_neg (by omega)]
          unfold rdSlice
          rw [if_pos (by omega)]
          exact ⟨_, rfl⟩
        · exact ⟨_, rfl⟩
      · exact ⟨_, rfl⟩
    obtain ⟨o, ho⟩ := this
    unfold deserAll
    rw [ho, R.ok_bind]
    exact ih (fun e he => h e (by simp [he]))

theorem exportPk_safe {c : Bytes} {x : Crt} {cap : Nat} (hcap : cap < 2 ^ 32 - 1) (hp : x.pkRaw.1 + x.pkRaw.2 < c.length) (hc : c.length < 2 ^ 32) :
    exportPk c x cap ≠ .ub := by
  unfold exportPk
  split
  · simp
  · rename_i p hf
    have hpr : p ≤ x.pkRaw.1 + x.pkRaw.2 := by
      unfold findPk at hf
      obtain ⟨e, he, hep⟩ := Option.map_eq_some_iff.1 hf
      have hm := List.mem_of_getLast? he
      have := libTraverse_range e (List.mem_filter.1 hm).1
      omega
    have hrd : rd c p = .ok (c[p]'(by omega)) := by
      unfold rd
      rw [List.getElem?_eq_getElem (by omega)]
    rw [hrd, R.ok_bind]
    have key : ∀ start : Nat, start ≤ p + 1 → (if (x.pkRaw.1 + x.pkRaw.2 + 2 ^ 32 - start) % 2 ^ 32 = 0 then (pure [] : R Bytes)
        else do
          checkBufferSize cap ((x.pkRaw.1 + x.pkRaw.2 + 2 ^ 32 - start) % 2 ^ 32)
          rdSlice c start ((x.pkRaw.1 + x.pkRaw.2 + 2 ^ 32 - start) % 2 ^ 32)) ≠ .ub := by
      intro start hs
      split
      · simp [R.pure_eq]
      · unfold checkBufferSize
        split
        · intro h; cases h
        · rename_i hle
          rw [R.ok_bind]
          unfold rdSlice
          rw [if_pos (by omega)]
          simp
    simp only
    split
    · exact key (p + 1) (Nat.le_refl _)
    · exact key p (by omega)

/-- **C59** No access outside the certificate and the buffers, for every certificate (and CA certificates) for
which mbedTLS reports positions inside it, when issuer and CA subjects have a common name, the CA's name is not longer than what follows
the issuer in the certificate, and the signature does not start within the first 64 bytes.  Missing: certificates
without common names, for which the claim is false (`C59_false_no_cn`). -/
theorem C59_in_bounds_partial (C : ECrypto) (parse : Bytes → Option Crt) (junk c : Bytes) (creds : List Cred) {pkCap : Nat} (hcap : pkCap < 2 ^ 32 - 1)
    (hc : c.length < 2 ^ 32)
    (h : ∀ x, parse c = some x → x.tbs.1 + x.tbs.2 ≤ c.length ∧ x.sig.1 + x.sig.2 ≤ c.length ∧ 64 ≤ x.sig.1 ∧
      x.pkRaw.1 + x.pkRaw.2 < c.length ∧ (∀ n, x.hashLen = some n → n ≤ 64) ∧ (lastCn x.issuer).isSome ∧
      ∀ k ∈ creds, ∀ y, parse k.ca = some y → ∃ p l q, lastCn y.subject = some (p, l) ∧ p + l ≤ k.ca.length ∧
        lastCn x.issuer = some q ∧ l ≤ c.length - q.1) :
    certX509 C parse junk c creds pkCap ≠ .ub := by
  unfold certX509
  split
  · simp
  · rename_i x hx
    obtain ⟨g1, g2, g3, g4, g5, g6, g7⟩ := h x hx
    obtain ⟨q, hq⟩ := Option.isSome_iff_exists.1 g6
    have hcs : ∀ ks : List Cred, (∀ k ∈ ks, k ∈ creds) → caSearch parse (c.drop q.1) ks ≠ .ub := by
      intro ks
      induction ks with
      | nil => intro _; simp [caSearch]
      | cons k ks ih =>
        intro hsub
        unfold caSearch
        split
        · exact ih (fun k hk => hsub k (by simp [hk]))
        · split
          · simp
          · rename_i y hy
            obtain ⟨p, l, q', e1, e2, e3, e4⟩ := g7 k (hsub k (by simp)) y hy
            rw [hq] at e3
            obtain rfl := Option.some.inj e3
            rw [e1]
            simp only
            have hs : rdSlice k.ca p l = .ok ((k.ca.drop p).take l) := by unfold rdSlice; rw [if_pos e2]
            rw [hs, R.ok_bind]
            have hn : nameEq ((k.ca.drop p).take l) (c.drop q.1) =
                .ok (((c.drop q.1).take ((k.ca.drop p).take l).length) == ((k.ca.drop p).take l)) := by
              unfold nameEq
              rw [if_pos (by rw [List.length_take, List.length_drop, List.length_drop]; omega)]
            rw [hn, R.ok_bind]
            split
            · simp [R.pure_eq]
            · exact ih (fun k hk => hsub k (by simp [hk]))
    have hca : caPkGet parse creds (c.drop q.1) ≠ .ub := by
      unfold caPkGet
      split
      · split
        · split <;> simp
        · exact hcs _ (fun _ hk => hk)
      · exact hcs _ (fun _ hk => hk)
    cases hu : sigAlgCheck x with
    | ub => unfold sigAlgCheck at hu; repeat' split at hu
            all_goals cases hu
    | err e => intro h; cases h
    | ok unit =>
      have hunit : unit ≤ 64 := by
        unfold sigAlgCheck at hu
        split at hu
        · cases hu
        · split at hu
          · cases hu
          · rename_i n hn
            obtain rfl := R.ok.inj hu
            exact g5 _ hn
      rw [R.ok_bind]
      have hi : issuerAt c x = .ok (c.drop q.1) := by unfold issuerAt; rw [hq]
      rw [hi, R.ok_bind]
      cases hr : caPkGet parse creds (c.drop q.1) with
      | ub => exact absurd hr hca
      | err e => intro h; cases h
      | ok root =>
        rw [R.ok_bind]
        obtain ⟨o, ho⟩ := deserAll_safe (c := c) (unit := unit) (es := libTraverse c x.sig) (out := []) (fun e he => by
          have := libTraverse_range e he
          omega)
        have hrs : rawSig c x unit junk = .ok (o ++ junk.drop o.length) := by
          unfold rawSig; rw [ho, R.ok_bind]; rfl
        have hm : rdSlice c x.tbs.1 x.tbs.2 = .ok ((c.drop x.tbs.1).take x.tbs.2) := by unfold rdSlice; rw [if_pos g1]
        rw [hrs, R.ok_bind, hm, R.ok_bind]
        cases hv : verifySig C .es256 root ((c.drop x.tbs.1).take x.tbs.2) (o ++ junk.drop o.length) with
        | ub => unfold verifySig at hv; rw [if_neg (by simp)] at hv; split at hv <;> cases hv
        | err e => intro h; cases h
        | ok v =>
          rw [R.ok_bind]
          cases hp : exportPk c x pkCap with
          | ub => exact absurd hp (exportPk_safe hcap g4 hc)
          | err e => intro h; cases h
          | ok pk => intro h; cases h

/-! ### Connection with the EDHOC model -/

/-- the fields of the certificate as the EDHOC model uses them (its parameter `x509`) -/
def view (parse : Bytes → Option Crt) (junk c : Bytes) : Option X509 :=
  (parse c).map fun x =>
    { issuerMem := c.drop ((lastCn x.issuer).getD (0, 0)).1, issuerLen := ((lastCn x.issuer).getD (0, 0)).2
      subject := slice c ((lastCn x.subject).getD (0, 0))
      ecdsa := x.ecdsa && x.hashLen.isSome
      tbs := slice c x.tbs
      sig := (rawSig c x (x.hashLen.getD 0) junk).getD []
      pk := (exportPk c x (2 ^ 32)).getD [] }

theorem rdSlice_slice {c b : Bytes} {p l : Nat} (h : rdSlice c p l = .ok b) : slice c (p, l) = b := by
  unfold rdSlice at h
  split at h
  · exact R.ok.inj h
  · cases h

theorem caSearch_view (C : ECrypto) {parse : Bytes → Option Crt} {junk iss root : Bytes} : ∀ {ks : List Cred},
    caSearch parse iss ks = .ok root → Edhoc.caSearch { C with x509 := view parse junk } iss ks = .ok root := by
  intro ks
  induction ks with
  | nil => intro h; cases h
  | cons k ks ih =>
    intro h
    unfold caSearch at h
    unfold Edhoc.caSearch
    split at h
    · rename_i h0; rw [if_pos h0]; exact ih h
    · rename_i h0
      rw [if_neg h0]
      split at h
      · cases h
      · rename_i x hx
        split at h
        · cases h
        · rename_i p l hcn
          obtain ⟨s, hs, h⟩ := R.bind_eq_ok.1 h
          obtain ⟨eq, he, h⟩ := R.bind_eq_ok.1 h
          have hsl : slice k.ca (p, l) = s := rdSlice_slice hs
          simp only [view, hx, Option.map_some, hcn, Option.getD_some, hsl]
          unfold nameEq at he
          split at he
          · have he := R.ok.inj he
            split at h
            · rename_i ht
              rw [ht] at he
              rw [if_pos (by simpa using he)]
              exact h
            · rename_i hf
              rw [if_neg (fun hh => hf (by rw [← he]; simp [hh]))]
              exact ih h
          · rename_i hlt
            split at he
            · cases he
            · rename_i hne
              have he := R.ok.inj he
              rw [if_neg (by simp [← he])] at h
              rw [if_neg (fun hh => hne (by rw [← hh, List.take_take, Nat.min_eq_left (by omega), List.take_of_length_le (Nat.le_refl _)]))]
              exact ih h

/-- **C59** What the detailed model accepts is what the EDHOC model accepts (so C49 holds of it): a result of `cert_x509_verify`
is the result of the model used by the EDHOC run, for the certificate fields at the positions given by mbedTLS. -/
theorem C59_refines (C : ECrypto) (parse : Bytes → Option Crt) (junk c : Bytes) (creds : List Cred) (pkCap : Nat) (z : Bool × Bytes)
    (h : certX509 C parse junk c creds pkCap = .ok z) :
    Edhoc.certX509Verify { C with x509 := view parse junk } c creds pkCap = .ok z := by
  unfold certX509 at h
  split at h
  · cases h
  · rename_i x hx
    obtain ⟨unit, hu, h⟩ := R.bind_eq_ok.1 h
    obtain ⟨iss, hi, h⟩ := R.bind_eq_ok.1 h
    obtain ⟨root, hr, h⟩ := R.bind_eq_ok.1 h
    obtain ⟨sig, hs, h⟩ := R.bind_eq_ok.1 h
    obtain ⟨m, hm, h⟩ := R.bind_eq_ok.1 h
    obtain ⟨v, hv, h⟩ := R.bind_eq_ok.1 h
    obtain ⟨pk, hp, h⟩ := R.bind_eq_ok.1 h
    obtain rfl := R.ok.inj h
    have hu' : x.ecdsa = true ∧ x.hashLen = some unit := by
      unfold sigAlgCheck at hu
      split at hu
      · cases hu
      · rename_i he
        split at hu
        · cases hu
        · rename_i n hn
          exact ⟨by simpa using he, by rw [hn, R.ok.inj hu]⟩
    obtain ⟨q, hq, hiq⟩ : ∃ q, lastCn x.issuer = some q ∧ c.drop q.1 = iss := by
      unfold issuerAt at hi
      split at hi
      · cases hi
      · rename_i p l hcn
        exact ⟨(p, l), hcn, R.ok.inj hi⟩
    have hview : view parse junk c = some ⟨iss, q.2, slice c ((lastCn x.subject).getD (0, 0)), true, m, sig, (exportPk c x (2 ^ 32)).getD []⟩ := by
      unfold view
      rw [hx, Option.map_some, hq, hu'.1, hu'.2]
      simp only [Option.getD_some, Option.isSome_some, Bool.and_self, hiq, hs, R.getD]
      rw [← rdSlice_slice hm]
    have hca : Edhoc.caPkGet { C with x509 := view parse junk } creds iss = .ok root := by
      unfold caPkGet at hr
      unfold Edhoc.caPkGet
      split at hr
      · split at hr
        · rename_i h0
          simp only; rw [if_pos h0]; exact hr
        · rename_i h0
          simp only; rw [if_neg h0]; exact caSearch_view C hr
      · rename_i hne
        split
        · exact absurd rfl (hne _)
        · exact caSearch_view C hr
    have hpk : memcpyS pkCap ((exportPk c x (2 ^ 32)).getD []) = .ok pk := by
      unfold exportPk at hp ⊢
      split at hp
      · obtain rfl := R.ok.inj hp
        exact memcpyS_ok.2 ⟨rfl, Nat.zero_le _⟩
      · rename_i p hf
        obtain ⟨b, hb, hp⟩ := R.bind_eq_ok.1 hp
        rw [hb, R.ok_bind]
        simp only at hp ⊢
        generalize (if b = 0 then p + 1 else p) = start at hp ⊢
        split at hp
        · rename_i hl
          obtain rfl := R.ok.inj hp
          rw [if_pos hl]
          exact memcpyS_ok.2 ⟨rfl, Nat.zero_le _⟩
        · rename_i hl
          obtain ⟨_, hc, hp⟩ := R.bind_eq_ok.1 hp
          have hle := checkBufferSize_ok.1 hc
          rw [if_neg hl]
          have : checkBufferSize (2 ^ 32) ((x.pkRaw.1 + x.pkRaw.2 + 2 ^ 32 - start) % 2 ^ 32) = .ok () :=
            checkBufferSize_ok.2 (by omega)
          rw [this, R.ok_bind, hp]
          refine memcpyS_ok.2 ⟨rfl, ?_⟩
          simp only [R.getD]
          rw [← rdSlice_slice hp]
          unfold slice
          rw [List.length_take]
          exact Nat.le_trans (Nat.min_le_left _ _) hle
    unfold Edhoc.certX509Verify
    simp only [hview, Bool.true_eq_false, ↓reduceIte]
    have hv' : verifySig { C with x509 := view parse junk } .es256 root m sig = .ok v := hv
    rw [hca, R.ok_bind, hv', R.ok_bind, hpk, R.ok_bind]
    rfl

/-! ### A concrete certificate -/

/-- the positions in the example certificate (the issuer "11…" is given as one common name) -/
def exCrt : Crt where
  issuer := [(false, 20, 1), (true, 22, 10)]
  subject := [(true, 235, 2)]
  ecdsa := true
  hashLen := some 32
  tbs := (4, 609)
  sig := (621, 71)
  pkRaw := (234, 75)

def exVerify : ECrypto :=
  { toyE with verify := (fun _ root m s => some (root == [7] && m == exampleCert.tbs && s == pad32 exampleCert.r ++ pad32 exampleCert.s)) }

/-- the hypotheses of `C59_wellformed_partial` are met, and the result is `true` -/
example : At exampleCert.der exCrt.tbs exampleCert.tbs ∧ At exampleCert.der exCrt.sig (seq (int exampleCert.r ++ int exampleCert.s)) ∧
    At exampleCert.der exCrt.pkRaw (seq (seq exampleCert.keyAlg ++ bits exampleCert.pk)) ∧
    32 ≤ (intContent exampleCert.r).length ∧ 32 ≤ (intContent exampleCert.s).length ∧ lastCn exCrt.issuer = some (22, 10) := by
  refine ⟨⟨?_, ?_⟩, ⟨?_, ?_⟩, ⟨?_, ?_⟩, ?_⟩ <;> decide +kernel

example : certX509 exVerify (fun _ => some exCrt) (List.replicate 64 0) exampleCert.der [⟨[], [], [], [], [], [7]⟩] 65 =
    .ok (true, exampleCert.pk) := by decide +kernel

/-- the same certificate with r one byte shorter: genuine, but not accepted -/
def exShort : DerSpec.Cert := { exampleCert with r := 0x7f :: List.replicate 30 0 }
example : At exShort.der (621, 69) (seq (int exShort.r ++ int exShort.s)) ∧ (intContent exShort.r).length < 32 ∧
    rawSig exShort.der { exCrt with sig := (621, 69) } 32 (List.replicate 64 0) = .ok (31 :: exShort.r ++ pad32 exShort.s) := by
  refine ⟨⟨?_, ?_⟩, ?_⟩ <;> decide +kernel

/-- C59, for every certificate: the integers of the signature, however many, never fill more than its 64 bytes. -/
theorem C59_signature_buffer {c junk sig : Bytes} {crt : Crt} {unit : Nat} (hj : junk.length = 64)
    (h : rawSig c crt unit junk = .ok sig) : sig.length = 64 := by
  have hone : ∀ out e o, out.length ≤ 64 → deserSign c unit out e = .ok o → o.length ≤ 64 := by
    intro out e o h0 h
    unfold deserSign at h
    split at h
    · split at h
      · split at h
        · cases h
        · obtain ⟨b, h1, h2⟩ := R.bind_eq_ok.1 h
          have := rdSlice_length h1
          rw [← R.ok.inj h2, List.length_append]
          omega
      · rw [← R.ok.inj h]; exact h0
    · rw [← R.ok.inj h]; exact h0
  have hall : ∀ es out o, out.length ≤ 64 → deserAll c unit out es = .ok o → o.length ≤ 64 := by
    intro es
    induction es with
    | nil => intro out o h0 h; rw [← R.ok.inj h]; exact h0
    | cons e es ih =>
      intro out o h0 h
      obtain ⟨o1, h1, h2⟩ := R.bind_eq_ok.1 h
      exact ih _ _ (hone _ _ _ h0 h1) h2
  unfold rawSig at h
  obtain ⟨o, h1, h2⟩ := R.bind_eq_ok.1 h
  have := hall _ _ _ (by simp) h1
  rw [← R.ok.inj h2, List.length_append, List.length_drop]
  omega

end Verif.MbedX509
