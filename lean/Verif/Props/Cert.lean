import Verif.Lemmas.Asn1Lemmas
/-
C55: X.509 certificates in the configuration without MBEDTLS.
-/
namespace Verif.Asn1
open Verif DerSpec

theorem sub_len {c s t : Bytes} {pos n : Nat} (hc : c.length < n) (h : c.drop pos = s ++ t) : s.length < n := by
  have := congrArg List.length h
  rw [List.length_drop, List.length_append] at this
  omega

theorem content_len {tag : UInt8} {v : Bytes} {n : Nat} (h : (tlv tag v).length < n) : v.length < n := by
  rw [tlv_length] at h; omega

theorem head_app {a b : Bytes} (h : a ≠ []) : (a ++ b).head? = some (a.head h) := by
  cases a with
  | nil => exact absurd rfl h
  | cons x y => rfl

/-- what the parser finds in a well-formed certificate -/
theorem parse_wf (k : Cert) (w : k.WF) (pkMem sigMem : Bytes) (len0 : Nat) (hp : pkMem.length = 65) :
    ∃ st, parse pkMem sigMem len0 k.der = .ok ⟨st, st + k.tbs.length,
      ⟨k.pk ++ pkMem.drop k.pk.length, k.pk.length⟩,
      ⟨k.r ++ k.s ++ sigMem.drop (k.r.length + k.s.length), k.r.length + k.s.length⟩⟩ ∧
      k.der.drop st = k.tbs ++ seq k.sigAlg ++ bits (seq (int k.r ++ int k.s)) := by
  have hsz := w.size
  obtain ⟨hr1, hr2, hr3⟩ := w.r
  obtain ⟨hs1, hs2, hs3⟩ := w.s
  generalize hc : k.der = c at *
  have h0 : c.drop 0 = seq (k.tbs ++ seq k.sigAlg ++ bits (seq (int k.r ++ int k.s))) ++ [] := by
    rw [← hc]; simp [Cert.der]
  obtain ⟨a1, a2⟩ := expect_nz (b := 0x30) (len := len0) h0 (content_len (sub_len hsz h0)) (by
    simp [Cert.tbs, seq, tlv]) (by decide)
  simp only [List.append_nil, Nat.zero_add] at a1 a2
  generalize hdr (k.tbs ++ seq k.sigAlg ++ bits (seq (int k.r ++ int k.s))) = st at *
  generalize (k.tbs ++ seq k.sigAlg ++ bits (seq (int k.r ++ int k.s))).length = aLen at *
  have a2' : c.drop st = seq (tlv k.e1.1 k.e1.2 ++ tlv k.e2.1 k.e2.2 ++ tlv k.e3.1 k.e3.2 ++ tlv k.e4.1 k.e4.2 ++
    tlv k.e5.1 k.e5.2 ++ tlv k.e6.1 k.e6.2 ++ seq (seq k.keyAlg ++ bits k.pk) ++ k.rest) ++
      (seq k.sigAlg ++ bits (seq (int k.r ++ int k.s))) := by
    rw [a2, List.append_assoc]; rfl
  obtain ⟨b1, b2⟩ := expect_nz (b := k.e1.1) (len := aLen) a2' (content_len (sub_len hsz a2')) (by
    simp [tlv]) w.tag1
  have btbs : ∀ x : Bytes, x = tlv k.e1.1 k.e1.2 ++ tlv k.e2.1 k.e2.2 ++ tlv k.e3.1 k.e3.2 ++ tlv k.e4.1 k.e4.2 ++
    tlv k.e5.1 k.e5.2 ++ tlv k.e6.1 k.e6.2 ++ seq (seq k.keyAlg ++ bits k.pk) ++ k.rest →
      st + hdr x + x.length = st + k.tbs.length := by
    rintro x rfl
    unfold Cert.tbs seq
    rw [tlv_length, Nat.add_assoc]
  have bend := btbs _ rfl
  generalize hx : tlv k.e1.1 k.e1.2 ++ tlv k.e2.1 k.e2.2 ++ tlv k.e3.1 k.e3.2 ++ tlv k.e4.1 k.e4.2 ++
    tlv k.e5.1 k.e5.2 ++ tlv k.e6.1 k.e6.2 ++ seq (seq k.keyAlg ++ bits k.pk) ++ k.rest = x at *
  clear btbs
  -- the six elements
  have d0 : c.drop (st + hdr x) = tlv k.e1.1 k.e1.2 ++ (tlv k.e2.1 k.e2.2 ++ (tlv k.e3.1 k.e3.2 ++
      (tlv k.e4.1 k.e4.2 ++ (tlv k.e5.1 k.e5.2 ++ (tlv k.e6.1 k.e6.2 ++ (seq (seq k.keyAlg ++ bits k.pk) ++
        (k.rest ++ (seq k.sigAlg ++ bits (seq (int k.r ++ int k.s)))))))))) := by
    rw [b2, ← hx]; simp only [List.append_assoc]
  obtain ⟨s1, d1⟩ := skip_step (n := 5) (len := x.length) d0 (content_len (sub_len hsz d0))
  obtain ⟨s2, d2⟩ := skip_step (n := 4) (len := k.e1.2.length) d1 (content_len (sub_len hsz d1))
  obtain ⟨s3, d3⟩ := skip_step (n := 3) (len := k.e2.2.length) d2 (content_len (sub_len hsz d2))
  obtain ⟨s4, d4⟩ := skip_step (n := 2) (len := k.e3.2.length) d3 (content_len (sub_len hsz d3))
  obtain ⟨s5, d5⟩ := skip_step (n := 1) (len := k.e4.2.length) d4 (content_len (sub_len hsz d4))
  obtain ⟨s6, d6⟩ := skip_step (n := 0) (len := k.e5.2.length) d5 (content_len (sub_len hsz d5))
  have sk := s1.trans (s2.trans (s3.trans (s4.trans (s5.trans s6))))
  have sk' : skipElems c 6 (st + hdr x, x.length) = _ := sk
  rw [show ∀ p, skipElems c 0 p = p from fun _ => rfl] at sk'
  clear sk
  generalize st + hdr x + (tlv k.e1.1 k.e1.2).length + (tlv k.e2.1 k.e2.2).length + (tlv k.e3.1 k.e3.2).length +
    (tlv k.e4.1 k.e4.2).length + (tlv k.e5.1 k.e5.2).length + (tlv k.e6.1 k.e6.2).length = q6 at *
  clear s1 s2 s3 s4 s5 s6
  -- the key
  obtain ⟨e1, e2⟩ := expect_nz (b := 0x30) (len := k.e6.2.length) d6 (content_len (sub_len hsz d6)) (by
    simp [seq, tlv]) (by decide)
  rw [List.append_assoc] at e2
  obtain ⟨ka1, ka2⟩ := w.keyAlg
  obtain ⟨f1, f2⟩ := expect_nz (b := k.keyAlg.head ka1) (len := (seq k.keyAlg ++ bits k.pk).length) e2
    (content_len (sub_len hsz e2)) (head_app ka1) (by
      rw [List.head?_eq_some_head ka1] at ka2; simpa using ka2)
  have f3 := drop_add f2
  obtain ⟨g1, g2⟩ := expect_z (len := k.keyAlg.length) f3 (content_len (sub_len hsz f3))
  have pk1 := copyPk_of_drop (mem := pkMem) g2 (by have := w.pk; omega)
  -- the signature
  have t2 : c.drop (st + k.tbs.length) = seq k.sigAlg ++ bits (seq (int k.r ++ int k.s)) := by
    rw [← bend]; exact drop_add b2
  obtain ⟨sa1, sa2⟩ := w.sigAlg
  obtain ⟨h1, h2⟩ := expect_nz (b := k.sigAlg.head sa1) (len := k.pk.length) t2 (content_len (sub_len hsz t2)) (head_app sa1) (by
      rw [List.head?_eq_some_head sa1] at sa2; simpa using sa2)
  have h3 := drop_add h2
  have h3' : c.drop (st + k.tbs.length + hdr k.sigAlg + k.sigAlg.length) =
      bits (seq (int k.r ++ int k.s)) ++ [] := by rw [h3]; simp
  obtain ⟨i1, i2⟩ := expect_z (len := k.sigAlg.length) h3' (content_len (sub_len hsz h3'))
  obtain ⟨j1, j2⟩ := expect_nz (b := 0x02) (len := (seq (int k.r ++ int k.s)).length) i2
    (content_len (sub_len hsz i2)) (by simp [int, tlv]) (by decide)
  rw [List.append_nil] at j2
  obtain ⟨q7, k1, k2⟩ := expect_int (len := (int k.r ++ int k.s).length) j2 hr3 hr1 hr2
  have c1 := copySig_of_drop (b := ⟨sigMem, 0⟩) k2 hr1 (by simp only []; omega)
  have k3 := drop_add k2
  have k3' : c.drop (q7 + k.r.length) = int k.s ++ [] := by rw [k3]; simp
  obtain ⟨q8, l1, l2⟩ := expect_int (len := k.r.length) k3' hs3 hs1 hs2
  simp only [List.take_zero, List.nil_append, Nat.zero_add] at c1
  have c2 := copySig_of_drop (b := ⟨k.r ++ sigMem.drop k.r.length, k.r.length⟩) l2 hs1 (by simp only []; omega)
  simp only [List.take_left, List.drop_append] at c2
  have ce1 : checkEnd c (q7, k.r.length) = .ok () := by
    unfold checkEnd; rw [if_pos (length_of_drop k2 hr1)]
  have ce2 : checkEnd c (q8, k.s.length) = .ok () := by
    unfold checkEnd; rw [if_pos (length_of_drop l2 hs1)]
  refine ⟨st, ?_, a2⟩
  unfold parse tagSequence tagBitString
  unfold tagInteger at *
  rw [a1, R.ok_bind]
  simp only []
  rw [b1, R.ok_bind]
  simp only []
  rw [sk', e1, R.ok_bind]
  simp only []
  rw [f1, R.ok_bind]
  simp only []
  rw [g1, R.ok_bind]
  simp only []
  rw [pk1, R.ok_bind, bend, h1, R.ok_bind]
  simp only []
  rw [i1, R.ok_bind]
  simp only []
  rw [j1, R.ok_bind]
  simp only []
  rw [k1, R.ok_bind, ce1, R.ok_bind]
  simp only []
  rw [c1, R.ok_bind, l1, R.ok_bind, ce2, R.ok_bind]
  simp only []
  rw [c2, R.ok_bind]
  have hz : k.r.length + k.s.length - k.r.length = k.s.length := by omega
  have hd : List.drop (k.r.length + k.s.length) k.r = [] := List.drop_eq_nil_of_le (by omega)
  simp only [hd, List.nil_append, List.drop_drop, hz, R.pure_eq]

/-- **C55** A well-formed certificate whose signature values have their full 32 bytes is verified with the
configured CA key over exactly its TBSCertificate and the signature r ‖ s, and the key handed out is the
subject's public key; whatever the uninitialised buffers contain. -/
theorem C55_wellformed_partial (verify : Bytes → Bytes → Bytes → Bool) (k : Cert) (w : k.WF) (hr : k.r.length = 32)
    (hs : k.s.length = 32) (root : Bytes) (hroot : root ≠ []) (pkMem sigMem : Bytes) (len0 : Nat)
    (hp : pkMem.length = 65) :
    certX509 verify [root] pkMem sigMem len0 k.der =
      if verify root k.tbs (k.r ++ k.s) then
        .ok (true, ⟨k.pk ++ pkMem.drop k.pk.length, k.pk.length⟩)
      else .err .unexpected_result_from_ext_lib := by
  obtain ⟨st, h1, h2⟩ := parse_wf k w pkMem sigMem len0 hp
  unfold certX509
  rw [h1, R.ok_bind, if_neg (by simp)]
  have hr' : caPk [root] = .ok root := by
    show (if root.length = 0 then R.err Err.no_such_ca else R.ok root) = _
    rw [if_neg (by intro e; exact hroot (List.length_eq_zero_iff.1 e))]
  rw [hr', R.ok_bind]
  simp only []
  rw [Nat.add_sub_cancel_left, rdSlice_of_drop (v := k.tbs) (by rw [h2, List.append_assoc]) (by simp [Cert.tbs, seq, tlv]),
    R.ok_bind]
  unfold verifyEs256
  have e : (k.r ++ k.s ++ sigMem.drop (k.r.length + k.s.length)).take 64 = k.r ++ k.s := by
    rw [List.take_left' (by rw [List.length_append, hr, hs])]
  rw [e]
  split <;> rfl

/-- **C55_false** A signature value that happens to have leading zero bytes (one certificate in 128) is not
padded: what is verified is not r ‖ s in 32 bytes each, and depends on uninitialised memory. -/
theorem C55_false_short_integer (verify : Bytes → Bytes → Bytes → Bool) (k : Cert) (w : k.WF)
    (hlen : k.r.length + k.s.length < 64) (root : Bytes) (hroot : root ≠ []) (pkMem sigMem : Bytes) (len0 : Nat)
    (hp : pkMem.length = 65) (hm : sigMem.length = 64) :
    certX509 verify [root] pkMem sigMem len0 k.der =
      if verify root k.tbs (k.r ++ k.s ++ sigMem.drop (k.r.length + k.s.length)) then
        .ok (true, ⟨k.pk ++ pkMem.drop k.pk.length, k.pk.length⟩)
      else .err .unexpected_result_from_ext_lib := by
  obtain ⟨st, h1, h2⟩ := parse_wf k w pkMem sigMem len0 hp
  unfold certX509
  rw [h1, R.ok_bind, if_neg (by simp)]
  have hr' : caPk [root] = .ok root := by
    show (if root.length = 0 then R.err Err.no_such_ca else R.ok root) = _
    rw [if_neg (by intro e; exact hroot (List.length_eq_zero_iff.1 e))]
  rw [hr', R.ok_bind]
  simp only []
  rw [Nat.add_sub_cancel_left, rdSlice_of_drop (v := k.tbs) (by rw [h2, List.append_assoc]) (by simp [Cert.tbs, seq, tlv]),
    R.ok_bind]
  unfold verifyEs256
  rw [List.take_of_length_le (by simp only [List.length_append, List.length_drop]; omega)]
  split <;> rfl

/-- **C55** Whatever certificate was received: if it is accepted, a single CA key is configured and it
verified a part of the certificate. -/
theorem C55_accepted_partial (verify : Bytes → Bytes → Bytes → Bool) (caPks : List Bytes) (pkMem sigMem c : Bytes)
    (len0 : Nat) (pk : Buf) (h : certX509 verify caPks pkMem sigMem len0 c = .ok (true, pk)) :
    ∃ root pre m post sig, caPks = [root] ∧ root ≠ [] ∧ c = pre ++ m ++ post ∧ verify root m sig = true := by
  unfold certX509 at h
  obtain ⟨r, _, h⟩ := R.bind_eq_ok.1 h
  split at h
  · simp at h
  · obtain ⟨root, hr, h⟩ := R.bind_eq_ok.1 h
    obtain ⟨m, hm, h⟩ := R.bind_eq_ok.1 h
    obtain ⟨_, hv, h⟩ := R.bind_eq_ok.1 h
    unfold verifyEs256 at hv
    split at hv
    · rename_i hv'
      unfold rdSlice at hm
      split at hm
      · simp only [R.ok.injEq] at hm
        refine ⟨root, c.take r.tbsStart, m, c.drop (r.tbsStart + (r.tbsEnd - r.tbsStart)), _, ?_, ?_, ?_, hv'⟩
        · unfold caPk at hr
          split at hr
          · split at hr
            · cases hr
            · simp only [R.ok.injEq] at hr; rw [hr]
          · cases hr
        · unfold caPk at hr
          split at hr
          · split at hr
            · cases hr
            · rename_i hne
              simp only [R.ok.injEq] at hr; subst hr
              intro e; subst e; exact hne rfl
          · cases hr
        · rw [← hm, ← List.drop_drop, List.append_assoc, List.take_append_drop, List.take_append_drop]
      · cases hm
    · cases hv

/-- **C55** With several credentials configured (or none) no certificate is ever accepted. -/
theorem C55_several_refused (verify : Bytes → Bytes → Bytes → Bool) (caPks : List Bytes) (pkMem sigMem c : Bytes)
    (len0 : Nat) (pk : Buf) (hn : caPks.length ≠ 1) :
    certX509 verify caPks pkMem sigMem len0 c ≠ .ok (true, pk) := by
  intro h
  obtain ⟨root, _, _, _, _, rfl, _⟩ := C55_accepted_partial verify caPks pkMem sigMem c len0 pk h
  exact hn rfl

/-! ### false of the code -/

/-- a certificate with an INTEGER of 100 bytes where the signature is expected -/
def overflowCert : Bytes :=
  seq (seq (tlv 2 [1] ++ tlv 2 [1] ++ tlv 2 [1] ++ tlv 2 [1] ++ tlv 2 [1] ++ tlv 2 [1] ++
    seq (seq [5] ++ bits [4])) ++ seq [5] ++ bits (seq (tlv 2 (List.replicate 100 7) ++ tlv 2 [9, 9])))

/-- **C55_false** A received certificate makes the code write behind the signature buffer on the stack,
before (and without) any signature check: for all CA configurations and all signature primitives. -/
theorem C55_false_stack_overflow (verify : Bytes → Bytes → Bytes → Bool) (caPks : List Bytes) :
    certX509 verify caPks (List.replicate 65 0) (List.replicate 64 0) 0 overflowCert = .ub := by
  have : parse (List.replicate 65 0) (List.replicate 64 0) 0 overflowCert = .ub := by decide +kernel
  unfold certX509
  rw [this]
  rfl

/-- **C55_false** Truncated certificates are read behind their end. -/
theorem C55_false_overread (verify : Bytes → Bytes → Bytes → Bool) (caPks : List Bytes) :
    certX509 verify caPks (List.replicate 65 0) (List.replicate 64 0) 0 [0x30] = .ub := by
  have : parse (List.replicate 65 0) (List.replicate 64 0) 0 [0x30] = .ub := by decide +kernel
  unfold certX509
  rw [this]
  rfl

/-- a signed part with four elements, followed by parts chosen by an attacker -/
def signedPart : Bytes := seq (tlv 2 [1] ++ tlv 2 [1] ++ tlv 2 [1] ++ tlv 2 [1])

/-- the attacker's key: 65 bytes 0x55 -/
def outsideKeyCert : Bytes :=
  seq (signedPart ++ seq [5] ++ bits (seq (int (List.replicate 32 7) ++ int (List.replicate 32 9))) ++
    seq (seq [5] ++ bits (List.replicate 65 0x55)))

/-- **C55_false** The key handed out need not lie in the part that is signed: elements are not bounded by
the end of the TBSCertificate. -/
theorem C55_false_key_outside :
    certX509 (fun _ m _ => m = signedPart) [[1]] (List.replicate 65 0) (List.replicate 64 0) 0 outsideKeyCert =
      .ok (true, ⟨List.replicate 65 0x55, 65⟩) ∧ ¬ (0x55 ∈ signedPart) := by
  decide +kernel

/-- a certificate with a key of 97 bytes (P-384) -/
def longKeyCert : Bytes :=
  seq (seq (tlv 2 [1] ++ tlv 2 [1] ++ tlv 2 [1] ++ tlv 2 [1] ++ tlv 2 [1] ++ tlv 2 [1] ++
    seq (seq [5] ++ bits (List.replicate 97 4))) ++ seq [5] ++
      bits (seq (int (List.replicate 32 7) ++ int (List.replicate 32 9))))

/-- **C55_false** A key longer than the buffer is not copied, but its length is reported. -/
theorem C55_false_key_length :
    certX509 (fun _ _ _ => true) [[1]] (List.replicate 65 0) (List.replicate 64 0) 0 longKeyCert =
      .ok (true, ⟨List.replicate 65 0, 97⟩) := by
  decide +kernel

/-- a well-formed certificate -/
def exampleCert : Cert where
  e1 := (0xa0, [2, 1, 2])
  e2 := (2, [1, 2, 3])
  e3 := (0x30, [6, 1, 9])
  e4 := (0x30, List.replicate 200 0x31)
  e5 := (0x30, [0x17, 0])
  e6 := (0x30, [0x31, 0])
  keyAlg := [6, 1, 7]
  pk := 4 :: List.replicate 64 0x11
  rest := tlv 0xa3 (List.replicate 300 0)
  sigAlg := [6, 1, 9]
  r := 0x80 :: List.replicate 31 0
  s := 0x7f :: List.replicate 31 0xff

example : exampleCert.WF ∧ exampleCert.r.length = 32 ∧ exampleCert.s.length = 32 := by
  refine ⟨⟨by decide, by decide, by decide, by decide, ⟨by decide, by decide, by decide⟩,
    ⟨by decide, by decide, by decide⟩, by decide +kernel⟩, by decide, by decide⟩

/-- the same with a short r -/
example : { exampleCert with r := 0x7f :: List.replicate 30 0 }.WF := by
  refine ⟨by decide, by decide, by decide, by decide, ⟨by decide, by decide, by decide⟩,
    ⟨by decide, by decide, by decide⟩, by decide +kernel⟩

theorem rdSlice_length {c b : Bytes} {p l : Nat} (h : rdSlice c p l = .ok b) : b.length = l := by
  unfold rdSlice at h
  split at h
  · rw [← R.ok.inj h, List.length_take, List.length_drop]; omega
  · cases h

/-- C55, for every certificate, well-formed or not: a call that returns has written neither beyond the caller's key buffer
nor beyond the 64 bytes of the signature buffer (it may have announced a longer key, `C55_false_key_length`). -/
theorem C55_buffers_partial {pkMem sigMem c : Bytes} {len0 : Nat} {r : Parsed} (hs : sigMem.length = 64)
    (h : parse pkMem sigMem len0 c = .ok r) : r.pk.mem.length = pkMem.length ∧ r.sig.mem.length = 64 := by
  have hpk : ∀ pos len b, copyPk pkMem c pos len = .ok b → b.mem.length = pkMem.length := by
    intro pos len b h
    unfold copyPk at h
    split at h
    · rw [← R.ok.inj h]
    · split at h
      · rw [← R.ok.inj h]
      · obtain ⟨s, h1, h2⟩ := R.bind_eq_ok.1 h
        rw [← R.ok.inj h2]
        have := rdSlice_length h1
        simp only [List.length_append, List.length_drop]
        omega
  have hsg : ∀ b0 pos len b, b0.mem.length = 64 → copySig b0 c pos len = .ok b → b.mem.length = 64 := by
    intro b0 pos len b h0 h
    unfold copySig at h
    split at h
    · rw [← R.ok.inj h]; exact h0
    · split at h
      · rw [← R.ok.inj h]; exact h0
      · split at h
        · cases h
        · obtain ⟨s, h1, h2⟩ := R.bind_eq_ok.1 h
          rw [← R.ok.inj h2]
          have := rdSlice_length h1
          simp only [List.length_append, List.length_drop, List.length_take]
          omega
  unfold parse at h
  obtain ⟨_, _, h⟩ := R.bind_eq_ok.1 h
  obtain ⟨_, _, h⟩ := R.bind_eq_ok.1 h
  obtain ⟨_, _, h⟩ := R.bind_eq_ok.1 h
  obtain ⟨_, _, h⟩ := R.bind_eq_ok.1 h
  obtain ⟨_, _, h⟩ := R.bind_eq_ok.1 h
  obtain ⟨_, h1, h⟩ := R.bind_eq_ok.1 h
  obtain ⟨_, _, h⟩ := R.bind_eq_ok.1 h
  obtain ⟨_, _, h⟩ := R.bind_eq_ok.1 h
  obtain ⟨_, _, h⟩ := R.bind_eq_ok.1 h
  obtain ⟨_, _, h⟩ := R.bind_eq_ok.1 h
  obtain ⟨_, _, h⟩ := R.bind_eq_ok.1 h
  obtain ⟨_, h2, h⟩ := R.bind_eq_ok.1 h
  obtain ⟨_, _, h⟩ := R.bind_eq_ok.1 h
  obtain ⟨_, _, h⟩ := R.bind_eq_ok.1 h
  obtain ⟨_, h3, h⟩ := R.bind_eq_ok.1 h
  rw [← R.ok.inj h]
  exact ⟨hpk _ _ _ h1, hsg _ _ _ _ (hsg _ _ _ _ hs h2) h3⟩

/-- `pos` is where the content of an element with this tag starts: the tag stands a few bytes before (length octets, at most
one skipped zero) -/
def ContentOf (tag : UInt8) (c : Bytes) (pos : Nat) : Prop := ∃ p, c[p]? = some tag ∧ p < pos ∧ pos ≤ p + 7

theorem getLen_pos (c : Bytes) (pos len : Nat) : pos ≤ (getLen c pos len).1 ∧ (getLen c pos len).1 ≤ pos + 5 := by
  unfold getLen
  dsimp only
  repeat' split
  all_goals (simp only; omega)

theorem expectTag_content {tag : UInt8} {c : Bytes} {pos len : Nat} {r : Nat × Nat} (h : expectTag tag c pos len = .ok r) :
    c[pos]? = some tag ∧ pos < r.1 ∧ ContentOf tag c r.1 := by
  unfold expectTag at h
  obtain ⟨b, h1, h2⟩ := R.bind_eq_ok.1 h
  split at h2
  · cases h2
  rename_i hb
  have hb' : b = tag := by simpa using hb
  subst hb'
  have hc : c[pos]? = some b := by
    unfold rd at h1
    split at h1
    · rename_i x hx
      rw [← R.ok.inj h1]; exact hx
    · cases h1
  obtain ⟨g1, g2⟩ := getLen_pos c (pos + 1) len
  unfold skipZero at h2
  obtain ⟨z, _, h3⟩ := R.bind_eq_ok.1 h2
  split at h3
  · obtain rfl := R.ok.inj h3
    exact ⟨hc, by simp only; omega, pos, hc, by simp only; omega, by simp only; omega⟩
  · obtain rfl := R.ok.inj h3
    exact ⟨hc, by omega, pos, hc, by omega, by omega⟩

theorem copyPk_content {mem c : Bytes} {pos len : Nat} {b : Buf} (h : copyPk mem c pos len = .ok b) (hl : b.len ≤ mem.length) :
    b.mem = (c.drop pos).take b.len ++ mem.drop b.len := by
  unfold copyPk at h
  split at h
  · obtain rfl := R.ok.inj h
    simp
  · split at h
    · obtain rfl := R.ok.inj h
      simp only at hl
      omega
    · obtain ⟨s, h1, h2⟩ := R.bind_eq_ok.1 h
      obtain rfl := R.ok.inj h2
      unfold rdSlice at h1
      split at h1
      · rw [← R.ok.inj h1]
      · cases h1

theorem copySig_content {b b' : Buf} {c : Bytes} {pos len : Nat} (h : copySig b c pos len = .ok b') (hl : b.len + len ≤ 64) :
    b'.len = b.len + len ∧ (len = 0 ∧ b' = b ∨ b'.mem = b.mem.take b.len ++ (c.drop pos).take len ++ b.mem.drop (b.len + len)) := by
  unfold copySig at h
  split at h
  · rename_i h0
    obtain rfl := R.ok.inj h
    exact ⟨by omega, .inl ⟨h0, rfl⟩⟩
  · split at h
    · omega
    · rw [if_neg (by omega)] at h
      obtain ⟨s, h1, h2⟩ := R.bind_eq_ok.1 h
      obtain rfl := R.ok.inj h2
      unfold rdSlice at h1
      split at h1
      · rw [← R.ok.inj h1]
        exact ⟨by simp only; omega, .inr rfl⟩
      · cases h1

/-- **C55** (what is used) Whatever certificate was received, if it is accepted: it is a SEQUENCE, so is the part of it which the
configured CA key verified; the signature consists of the contents of two INTEGER elements of the certificate, and the key
handed to the caller is the content of a BIT STRING element of it (if they fit; that it is in the signed part is not
checked, `C55_false_key_outside`). -/
theorem C55_fields_partial (verify : Bytes → Bytes → Bytes → Bool) (caPks : List Bytes) (pkMem sigMem c : Bytes)
    (len0 : Nat) (pk : Buf) (hsm : sigMem.length = 64) (h : certX509 verify caPks pkMem sigMem len0 c = .ok (true, pk)) :
    ∃ root pre m post sig pK pR pS lR lS, caPks = [root] ∧ c = pre ++ m ++ post ∧ verify root m sig = true ∧
      c.head? = some 0x30 ∧ m.head? = some 0x30 ∧ ContentOf 0x03 c pK ∧ ContentOf 0x02 c pR ∧ ContentOf 0x02 c pS ∧
      (pk.len ≤ pkMem.length → pk.mem = (c.drop pK).take pk.len ++ pkMem.drop pk.len) ∧
      (lR + lS ≤ 64 → sig = (c.drop pR).take lR ++ (c.drop pS).take lS ++ sigMem.drop (lR + lS)) ∧
      pR + lR ≤ c.length ∧ pS + lS ≤ c.length := by
  have h0 := h
  unfold certX509 at h
  obtain ⟨r, hp, h1⟩ := R.bind_eq_ok.1 h
  split at h1
  · simp at h1
  obtain ⟨root, hr, h2⟩ := R.bind_eq_ok.1 h1
  obtain ⟨m, hm, h3⟩ := R.bind_eq_ok.1 h2
  obtain ⟨_, hv, h4⟩ := R.bind_eq_ok.1 h3
  have hpk : r.pk = pk := (Prod.mk.inj (R.ok.inj h4)).2
  have hroot : caPks = [root] := by
    unfold caPk at hr
    split at hr
    · split at hr
      · cases hr
      · rw [R.ok.inj hr]
    · cases hr
  have hb := (C55_buffers_partial hsm hp).2
  unfold verifyEs256 at hv
  split at hv
  case isFalse => cases hv
  rename_i hv'
  rw [List.take_of_length_le (by omega)] at hv'
  unfold parse at hp
  obtain ⟨a, ha, p1⟩ := R.bind_eq_ok.1 hp
  obtain ⟨b, hb', p2⟩ := R.bind_eq_ok.1 p1
  obtain ⟨e, he, p3⟩ := R.bind_eq_ok.1 p2
  obtain ⟨f, hf, p4⟩ := R.bind_eq_ok.1 p3
  obtain ⟨g, hg, p5⟩ := R.bind_eq_ok.1 p4
  obtain ⟨k, hk, p6⟩ := R.bind_eq_ok.1 p5
  obtain ⟨_, _, p7⟩ := R.bind_eq_ok.1 p6
  obtain ⟨_, _, p8⟩ := R.bind_eq_ok.1 p7
  obtain ⟨_, _, p9⟩ := R.bind_eq_ok.1 p8
  obtain ⟨i1, hi1, p10⟩ := R.bind_eq_ok.1 p9
  obtain ⟨_, c1, p11⟩ := R.bind_eq_ok.1 p10
  obtain ⟨s1, hs1, p12⟩ := R.bind_eq_ok.1 p11
  obtain ⟨i2, hi2, p13⟩ := R.bind_eq_ok.1 p12
  obtain ⟨_, c2, p14⟩ := R.bind_eq_ok.1 p13
  obtain ⟨s2, hs2, p15⟩ := R.bind_eq_ok.1 p14
  obtain rfl := R.ok.inj p15
  simp only at hpk hv' hm hb
  subst hpk
  obtain ⟨a1, -, -⟩ := expectTag_content ha
  obtain ⟨b1, b2, -⟩ := expectTag_content hb'
  obtain ⟨-, -, g1⟩ := expectTag_content hg
  obtain ⟨-, -, k1⟩ := expectTag_content hi1
  obtain ⟨-, -, k2⟩ := expectTag_content hi2
  have end_ : ∀ p, checkEnd c p = .ok () → p.1 + p.2 ≤ c.length := by
    intro p hp
    unfold checkEnd at hp
    split at hp
    · assumption
    · cases hp
  unfold rdSlice at hm
  split at hm
  case isFalse => cases hm
  obtain rfl := R.ok.inj hm
  refine ⟨root, c.take a.1, _, c.drop (a.1 + (b.1 + b.2 - a.1)), s2.mem, g.1, i1.1, i2.1, i1.2, i2.2, hroot, ?_, hv', ?_, ?_, g1, k1, k2,
    fun hl => copyPk_content hk hl, ?_, end_ _ c1, end_ _ c2⟩
  · rw [← List.drop_drop, List.append_assoc, List.take_append_drop, List.take_append_drop]
  · rw [List.head?_eq_getElem?]; exact a1
  · rw [List.head?_eq_getElem?, List.getElem?_take, if_pos (by omega), List.getElem?_drop]; exact b1
  · intro hl
    obtain ⟨l1, m1⟩ := copySig_content hs1 (by simp only; omega)
    simp only [Nat.zero_add] at l1
    obtain ⟨l2, m2⟩ := copySig_content hs2 (by omega)
    have e1 : s1.mem = (c.drop i1.1).take i1.2 ++ sigMem.drop i1.2 := by
      rcases m1 with ⟨z, rfl⟩ | m1
      · simp [z]
      · simpa using m1
    have hlen : ((c.drop i1.1).take i1.2).length = i1.2 := by
      rw [List.length_take, List.length_drop]; have := end_ _ c1; omega
    rcases m2 with ⟨z, rfl⟩ | m2
    · rw [e1, z]; simp
    · have hd : ((c.drop i1.1).take i1.2 ++ sigMem.drop i1.2).drop (i1.2 + i2.2) = sigMem.drop (i1.2 + i2.2) := by
        rw [List.drop_append, hlen, List.drop_of_length_le (by rw [hlen]; omega), List.drop_drop, List.nil_append]
        congr 1; omega
      rw [m2, l1, e1, List.take_left' hlen, hd]

/-- such a certificate: `exampleCert`, with a CA key that verifies everything -/
example : certX509 (fun _ _ _ => true) [[1]] (List.replicate 65 0) (List.replicate 64 0) 0 exampleCert.der =
    .ok (true, ⟨4 :: List.replicate 64 0x11, 65⟩) := by
  decide +kernel

end Verif.Asn1
