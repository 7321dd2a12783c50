import Verif.Lemmas.ProtectOk
import Verif.Lemmas.SortLemmas
import Verif.Lemmas.Examples
namespace Verif

/-! ### how many bytes the options of a packet take -/

/-- bytes of the values, with the extended length bytes -/
def valBytes : List Opt → Nat
  | [] => 0
  | o :: os => optExtraBytes o.len + o.len + valBytes os

/-- header bytes of options with these deltas -/
def hdrBytes : List Opt → Nat
  | [] => 0
  | o :: os => 1 + optExtraBytes o.delta + hdrBytes os

/-- header bytes of options with these numbers, when the deltas are computed anew -/
def numBytes : Nat → List Nat → Nat
  | _, [] => 0
  | p, x :: xs => 1 + optExtraBytes ((x + 65536 - p) % 65536) + numBytes x xs

theorem encOpts_len (l : List Opt) : (encOpts l).length = hdrBytes l + valBytes l := by
  induction l with
  | nil => rfl
  | cons o l ih =>
    have := optHeader_length o
    have e : o.len = o.value.length := rfl
    simp only [encOpts, List.length_append, hdrBytes, valBytes]; omega

theorem hdrBytes_redelta (p : Nat) (l : List Opt) : hdrBytes (redelta p l) = numBytes p (l.map Opt.num) := by
  induction l generalizing p with
  | nil => rfl
  | cons o l ih => simp only [redelta, hdrBytes, List.map_cons, numBytes, ih]

theorem valBytes_redelta (p : Nat) (l : List Opt) : valBytes (redelta p l) = valBytes l := by
  induction l generalizing p with
  | nil => rfl
  | cons o l ih => simp only [redelta, valBytes, ih]; rfl

theorem valBytes_append (a b : List Opt) : valBytes (a ++ b) = valBytes a + valBytes b := by
  induction a with
  | nil => simp [valBytes]
  | cons o a ih => simp only [List.cons_append, valBytes, ih]; omega

theorem valBytes_perm {a b : List Opt} (h : a.Perm b) : valBytes a = valBytes b := by
  induction h with
  | nil => rfl
  | cons x _ ih => simp only [valBytes, ih]
  | swap x y l => simp only [valBytes]; omega
  | trans _ _ h1 h2 => rw [h1, h2]

theorem valBytes_filter (f : Opt → Bool) (l : List Opt) : valBytes (l.filter f) ≤ valBytes l := by
  induction l with
  | nil => exact Nat.le_refl _
  | cons o l ih =>
    simp only [List.filter_cons]
    split
    · simp only [valBytes]; omega
    · simp only [valBytes]; omega

theorem ext_mono {a b : Nat} (h : a ≤ b) : optExtraBytes a ≤ optExtraBytes b := by
  unfold optExtraBytes
  repeat' split
  all_goals omega

theorem ext_add (a b : Nat) : optExtraBytes (a + b) ≤ optExtraBytes a + optExtraBytes b + 1 := by
  unfold optExtraBytes
  repeat' split
  all_goals omega

theorem ext_skip (p x s : Nat) (hp : p < 65536) (hx : x < 65536) :
    optExtraBytes ((s + 65536 - p) % 65536) ≤
      optExtraBytes ((x + 65536 - p) % 65536) + optExtraBytes ((s + 65536 - x) % 65536) + 1 := by
  refine Nat.le_trans (ext_mono ?_) (ext_add _ _)
  omega

/-- leaving out the option in front costs nothing -/
theorem numBytes_skip {p x : Nat} (hp : p < 65536) (hx : x < 65536) (l : List Nat) :
    numBytes p l ≤ 1 + optExtraBytes ((x + 65536 - p) % 65536) + numBytes x l := by
  cases l with
  | nil => simp [numBytes]
  | cons s l =>
    have := ext_skip p x s hp hx
    simp only [numBytes]; omega

/-- leaving out options never makes the rest longer -/
theorem numBytes_filter (f : Nat → Bool) {p : Nat} (hp : p < 65536) (l : List Nat) (hl : ∀ x ∈ l, x < 65536) :
    numBytes p (l.filter f) ≤ numBytes p l := by
  induction l generalizing p with
  | nil => exact Nat.le_refl _
  | cons x l ih =>
    have hx := hl x (by simp)
    have hl' : ∀ y ∈ l, y < 65536 := fun y hy => hl y (by simp [hy])
    simp only [List.filter_cons]
    split
    · have := ih hx hl'; simp only [numBytes]; omega
    · have := ih hx hl'
      have := numBytes_skip hp hx (l.filter f)
      simp only [numBytes]; omega

/-! ### sorting -/

/-- ordered insertion -/
def insNum (x : Nat) : List Nat → List Nat
  | [] => [x]
  | y :: l => if x ≤ y then x :: y :: l else y :: insNum x l

/-- increasing -/
def Up : Nat → List Nat → Prop
  | _, [] => True
  | p, x :: l => p ≤ x ∧ x < 65536 ∧ Up x l

theorem Up.weaken {p q : Nat} (h : q ≤ p) {l : List Nat} (hl : Up p l) : Up q l := by
  cases l with
  | nil => trivial
  | cons x l => exact ⟨Nat.le_trans h hl.1, hl.2⟩

theorem Up.le {p : Nat} {l : List Nat} (h : Up p l) : ∀ z ∈ l, p ≤ z := by
  induction l generalizing p with
  | nil => intro z hz; cases hz
  | cons w l ih =>
    intro z hz
    rcases List.mem_cons.1 hz with rfl | hz
    · exact h.1
    · exact Nat.le_trans h.1 (ih h.2.2 z hz)

theorem Up.lt {p : Nat} {l : List Nat} (h : Up p l) : ∀ z ∈ l, z < 65536 := by
  induction l generalizing p with
  | nil => intro z hz; cases hz
  | cons w l ih =>
    intro z hz
    rcases List.mem_cons.1 hz with rfl | hz
    · exact h.2.1
    · exact ih h.2.2 z hz

theorem ins_up {p x : Nat} {l : List Nat} (hl : Up p l) (hp : p ≤ x) (hx : x < 65536) : Up p (insNum x l) := by
  induction l generalizing p with
  | nil => exact ⟨hp, hx, trivial⟩
  | cons y l ih =>
    unfold insNum
    split
    · rename_i h; exact ⟨hp, hx, h, hl.2⟩
    · rename_i h; exact ⟨hl.1, hl.2.1, ih hl.2.2 (by omega)⟩

theorem ins_perm (x : Nat) (l : List Nat) : (insNum x l).Perm (x :: l) := by
  induction l with
  | nil => exact .refl _
  | cons y l ih =>
    unfold insNum
    split
    · exact .refl _
    · exact (List.Perm.cons y ih).trans (.swap x y l)

/-- a new option costs at most what its distance to some smaller one does -/
theorem ins_bytes {p x a : Nat} {l : List Nat} (hl : Up p l) (ha : a ∈ p :: l) (hax : a ≤ x) (hp : p ≤ x) (hx : x < 65536) :
    numBytes p (insNum x l) ≤ numBytes p l + 1 + optExtraBytes (x - a) := by
  induction l generalizing p a with
  | nil =>
    obtain rfl : a = p := by simpa using ha
    have : (x + 65536 - a) % 65536 = x - a := by omega
    simp only [insNum, numBytes, this]; omega
  | cons y l ih =>
    obtain ⟨h1, h2, h3⟩ := hl
    unfold insNum
    split
    · rename_i h
      have e1 : (x + 65536 - p) % 65536 = x - p := by omega
      have e2 : (y + 65536 - x) % 65536 = y - x := by omega
      have e3 : (y + 65536 - p) % 65536 = y - p := by omega
      simp only [numBytes, e1, e2, e3]
      have m2 := ext_mono (a := y - x) (b := y - p) (by omega)
      have hxa : optExtraBytes (x - p) ≤ optExtraBytes (x - a) ∨ optExtraBytes (x - p) + optExtraBytes (y - x) ≤ optExtraBytes (y - p) := by
        rcases List.mem_cons.1 ha with rfl | ha
        · exact Or.inl (Nat.le_refl _)
        · right
          have : y ≤ a := by
            rcases List.mem_cons.1 ha with rfl | ha
            · exact Nat.le_refl _
            · exact h3.le a ha
          have : x = y := by omega
          subst this
          simp [optExtraBytes]
      omega
    · rename_i h
      simp only [numBytes]
      rcases List.mem_cons.1 ha with rfl | ha
      · have := ih h3 (a := y) (by simp) (by omega) (by omega)
        have := ext_mono (a := x - y) (b := x - a) (by omega)
        omega
      · have := ih h3 ha hax (by omega)
        omega

/-- insertion of all -/
def insAll : List Nat → List Nat → List Nat
  | acc, [] => acc
  | acc, x :: l => insAll (insNum x acc) l

theorem insAll_up {acc l : List Nat} (ha : Up 0 acc) (hl : ∀ x ∈ l, x < 65536) : Up 0 (insAll acc l) := by
  induction l generalizing acc with
  | nil => exact ha
  | cons x l ih =>
    exact ih (ins_up ha (Nat.zero_le _) (hl x (by simp))) (fun y hy => hl y (by simp [hy]))

theorem insAll_perm (acc l : List Nat) : (insAll acc l).Perm (acc ++ l) := by
  induction l generalizing acc with
  | nil => simp [insAll]
  | cons x l ih =>
    refine (ih _).trans ?_
    refine ((ins_perm x acc).append_right l).trans ?_
    simpa using (List.perm_middle (a := x) (l₁ := acc) (l₂ := l)).symm

/-- Options whose numbers are the running sums of their deltas cost at most their own headers, wherever they are inserted. -/
theorem insAll_bytes {prev : Nat} {acc : List Nat} {opts : List Opt} (ha : Up 0 acc) (hp : prev ∈ 0 :: acc) (hn : numsOk prev opts) :
    numBytes 0 (insAll acc (opts.map Opt.num)) ≤ numBytes 0 acc + hdrBytes opts := by
  induction opts generalizing prev acc with
  | nil => simp [insAll, hdrBytes]
  | cons o l ih =>
    obtain ⟨h1, h2⟩ := hn
    have hlt : o.num < 65536 := by omega
    have hpl : prev < 65536 := by
      rcases List.mem_cons.1 hp with rfl | hp
      · omega
      · exact ha.lt prev hp
    have hu := ins_up ha (Nat.zero_le _) hlt
    have hm : o.num ∈ insNum o.num acc := (ins_perm o.num acc).symm.subset (by simp)
    have h3 := ih hu (List.mem_cons_of_mem _ hm) h2
    have h4 : numBytes 0 (insNum o.num acc) ≤ numBytes 0 acc + 1 + optExtraBytes o.delta := by
      by_cases hle : prev ≤ o.num
      · have := ins_bytes ha hp hle (Nat.zero_le _) hlt
        have := ext_mono (a := o.num - prev) (b := o.delta) (by omega)
        omega
      · have := ins_bytes ha (a := 0) (by simp) (Nat.zero_le _) (Nat.zero_le _) hlt
        have := ext_mono (a := o.num - 0) (b := o.delta) (by omega)
        omega
    simp only [List.map_cons, insAll, hdrBytes]; omega

theorem up_ext {p q : Nat} {l m : List Nat} (hl : Up p l) (hm : Up q m) (h : l.Perm m) : l = m := by
  induction l generalizing p q m with
  | nil => exact (List.nil_perm.1 h).symm
  | cons x l ih =>
    cases m with
    | nil => exact absurd h (by simp)
    | cons y m =>
      have hxy : x = y := by
        have h1 : x ≤ y := by
          rcases List.mem_cons.1 (h.symm.subset (List.mem_cons_self ..) : y ∈ x :: l) with rfl | h
          · exact Nat.le_refl _
          · exact hl.2.2.le y h
        have h2 : y ≤ x := by
          rcases List.mem_cons.1 (h.subset (List.mem_cons_self ..) : x ∈ y :: m) with rfl | h
          · exact Nat.le_refl _
          · exact hm.2.2.le x h
        omega
      subst hxy
      rw [ih hl.2.2 hm.2.2 (List.perm_cons x |>.1 h)]

theorem Up.filter {p : Nat} {l : List Nat} (f : Nat → Bool) (h : Up p l) : Up p (l.filter f) := by
  induction l generalizing p with
  | nil => trivial
  | cons x l ih =>
    simp only [List.filter_cons]
    split
    · exact ⟨h.1, h.2.1, ih h.2.2⟩
    · exact (ih h.2.2).weaken h.1

theorem up_of_sorted {l : List Opt} (h : NumSorted l) (hl : ∀ o ∈ l, o.num < 65536) : Up 0 (l.map Opt.num) := by
  have : ∀ (p : Nat) (l : List Opt), NumSorted l → (∀ o ∈ l, o.num < 65536) → (∀ o ∈ l, p ≤ o.num) → Up p (l.map Opt.num) := by
    intro p l
    induction l generalizing p with
    | nil => intro _ _ _; trivial
    | cons o l ih =>
      intro hs hlt hle
      have hs' := List.pairwise_cons.1 hs
      exact ⟨hle o (by simp), hlt o (by simp), ih o.num hs'.2 (fun q hq => hlt q (by simp [hq])) (fun q hq => hs'.1 q hq)⟩
  exact this 0 l h hl (fun _ _ => Nat.zero_le _)

/-- Merging the options of the packet and of the plaintext never takes more bytes than they took before. -/
theorem merged_bytes {u e : List Opt} (f : Nat → Bool) (hu : numsOk 0 u) (he : numsOk 0 e) :
    (encOpts (redelta 0 (exSort (u.filter (fun o => f o.num) ++ e).length (u.filter (fun o => f o.num) ++ e)))).length ≤
      (encOpts u).length + (encOpts e).length := by
  generalize hall : u.filter (fun o => f o.num) ++ e = all
  have hperm := exSort_perm all.length all
  have hlt : ∀ o ∈ all, o.num < 65536 := by
    intro o ho
    rw [← hall] at ho
    rcases List.mem_append.1 ho with h | h
    · exact numsOk_lt hu o (List.mem_filter.1 h).1
    · exact numsOk_lt he o h
  have hS := up_of_sorted (exSort_sorted all.length all (Nat.le_refl _)) (fun o ho => hlt o (hperm.subset ho))
  have t1 : Up 0 (insAll [] (u.map Opt.num)) := insAll_up trivial (by
    intro x hx; obtain ⟨o, ho, rfl⟩ := List.mem_map.1 hx; exact numsOk_lt hu o ho)
  have b1 := insAll_bytes (acc := []) trivial (by simp) hu
  have t2 := t1.filter f
  have b2 := numBytes_filter f (p := 0) (by omega) _ t1.lt
  have t3 : Up 0 (insAll ((insAll [] (u.map Opt.num)).filter f) (e.map Opt.num)) := insAll_up t2 (by
    intro x hx; obtain ⟨o, ho, rfl⟩ := List.mem_map.1 hx; exact numsOk_lt he o ho)
  have b3 := insAll_bytes t2 (by simp) he
  have hp : ((exSort all.length all).map Opt.num).Perm (insAll ((insAll [] (u.map Opt.num)).filter f) (e.map Opt.num)) := by
    refine (hperm.map _).trans ?_
    rw [← hall, List.map_append]
    refine List.Perm.trans ?_ (insAll_perm _ _).symm
    refine List.Perm.append_right _ ?_
    have := ((insAll_perm [] (u.map Opt.num)).filter f).symm
    rw [List.nil_append, List.filter_map] at this
    exact this
  rw [encOpts_len, encOpts_len, encOpts_len, hdrBytes_redelta, valBytes_redelta, up_ext hS t3 hp, valBytes_perm hperm, ← hall, valBytes_append]
  have := valBytes_filter (fun o => f o.num) u
  have z : numBytes 0 [] = 0 := rfl
  omega

/-! ### parsing -/

theorem ext_parseDelta {nib : Nat} {r r1 : Bytes} {d : Nat} (hn : nib < 16) (h : parseDelta nib r = .ok (d, r1)) :
    optExtraBytes d ≤ extLen nib := by
  unfold parseDelta at h
  unfold extLen
  have := optExtra_le d
  split at h
  · rename_i h13
    rw [if_pos h13]
    split at h
    · simp at h
      unfold optExtraBytes
      repeat' split
      all_goals omega
    · cases h
  · split at h
    · rename_i h13 h14; rw [if_neg h13, if_pos h14]; exact this
    · split at h
      · cases h
      · simp at h
        unfold optExtraBytes
        repeat' split
        all_goals omega

theorem ext_parseLen {nib : Nat} {r r1 : Bytes} {d : Nat} (hn : nib < 16) (h : parseLen nib r = .ok (d, r1)) :
    optExtraBytes d ≤ extLen nib := by
  unfold parseLen at h
  unfold extLen
  have := optExtra_le d
  split at h
  · rename_i h13
    rw [if_pos h13]
    split at h
    · simp at h
      unfold optExtraBytes
      repeat' split
      all_goals omega
    · cases h
  · split at h
    · rename_i h13 h14; rw [if_neg h13, if_pos h14]; exact this
    · split at h
      · cases h
      · simp at h
        unfold optExtraBytes
        repeat' split
        all_goals omega

theorem encOpts_append_len (a b : List Opt) : (encOpts (a ++ b)).length = (encOpts a).length + (encOpts b).length := by
  rw [encOpts_append, List.length_append]

theorem optLoopS_bytes {cap n : Nat} {rest : Bytes} {num : Nat} {acc opts : List (Opt × Bytes)} {payload : Bytes}
    (h : optLoopS cap n rest num acc = .ok (opts, payload)) :
    (encOpts (opts.map Prod.fst)).length + (if payload.length = 0 then 0 else 1 + payload.length) ≤
      (encOpts (acc.map Prod.fst)).length + rest.length := by
  induction n generalizing rest num acc with
  | zero =>
    unfold optLoopS at h
    split at h
    · simp at h; obtain ⟨rfl, rfl⟩ := h; simp
    · split at h
      · split at h
        · cases h
        · simp at h; obtain ⟨rfl, rfl⟩ := h; simp; split <;> omega
      · simp only [R.bind_eq_ok] at h
        obtain ⟨⟨d, r1⟩, hd, ⟨l, r2⟩, hl, h⟩ := h
        simp only at h
        repeat' split at h
        all_goals cases h
  | succ n ih =>
    unfold optLoopS at h
    split at h
    · simp at h; obtain ⟨rfl, rfl⟩ := h; simp
    · split at h
      · split at h
        · cases h
        · simp at h; obtain ⟨rfl, rfl⟩ := h; simp; split <;> omega
      · rename_i hb r _
        simp only [R.bind_eq_ok] at h
        obtain ⟨⟨d, r1⟩, hd, ⟨l, r2⟩, hl, h⟩ := h
        simp only at h
        split at h
        · cases h
        · split at h
          · cases h
          · rename_i hlt
            have h1 := ih h
            have hb256 := toNat_lt256 hb
            have x1 := ext_parseDelta (by omega) hd
            have x2 := ext_parseLen (by omega) hl
            obtain ⟨e1, rfl, l1⟩ := parseDelta_ok hd
            obtain ⟨e2, rfl, l2⟩ := parseLen_ok hl
            have htl : (r2.take l).length = l := by rw [List.length_take]; omega
            rw [List.map_append, encOpts_append_len, encOpts_len ([_].map _)] at h1
            simp only [List.map_cons, List.map_nil, hdrBytes, valBytes, Opt.len, htl, List.length_drop] at h1
            simp only [List.length_cons, List.length_append]
            omega

theorem optionsParse_bytes {inp : Bytes} {cap : Nat} {opts : List (Opt × Bytes)} {payload : Bytes} (hlen : inp.length < 65536)
    (h : optionsParse inp cap = .ok (opts, payload)) :
    (encOpts (opts.map Prod.fst)).length + (if payload.length = 0 then 0 else 1 + payload.length) ≤ inp.length := by
  rw [optionsParse_eq cap hlen] at h
  have := optLoopS_bytes h
  simpa [encOpts] using this

/-- a packet takes no more bytes when it is written than it took when it was read -/
theorem coapParse_size {inp : Bytes} {p : Pkt} {t : List (Opt × Bytes)} (hlen : inp.length < 65536)
    (h : coapParse inp = .ok (p, t)) :
    4 + p.token.length + (encOpts p.opts).length + (if p.payload.length = 0 then 0 else 1 + p.payload.length) ≤ inp.length := by
  unfold coapParse at h
  split at h
  · rename_i hb c m1 m0 rest
    simp only at h
    split at h
    · rename_i htkl
      simp only [R.bind_eq_ok, R.pure_eq, R.ok.injEq, Prod.mk.injEq] at h
      obtain ⟨⟨opts, payload⟩, ho, rfl, rfl⟩ := h
      have := optionsParse_bytes (by simp only [List.length_drop, List.length_cons] at *; omega) ho
      simp only [List.length_drop] at this
      simp only [List.length_take, List.length_cons]
      have : min (hb.toNat % 16) rest.length = hb.toNat % 16 := by omega
      omega
    · simp at h
  · simp at h

theorem encPkt_length (p : Pkt) : (encPkt p).length =
    4 + p.token.length + (encOpts p.opts).length + (if p.payload.length = 0 then 0 else 1 + p.payload.length) := by
  unfold encPkt
  have hh : (coapHeaderBytes p).length = 4 := rfl
  split <;> simp [hh] <;> omega

/-- `coap_serialize` with enough room -/
theorem serialize_room {cfg : Cfg} {p : Pkt} {cap : Nat} (h : (encPkt p).length ≤ cap) :
    coapSerialize cfg p cap = if optBytesLen p.opts ≤ cfg.maxCoapOptions then .ok (encPkt p) else .err .buffer_to_small := by
  split
  · rename_i ho; exact coapSerialize_ok.2 ⟨rfl, h, ho⟩
  · rename_i ho
    rw [encPkt_length] at h
    unfold coapSerialize
    rw [if_neg (by omega), memcpyS_ok.2 ⟨rfl, by omega⟩]
    simp only [R.ok_bind]
    unfold checkBufferSize
    rw [if_pos (by omega)]; rfl


/-! ### receiving -/

/-- the last step of both calls -/
theorem bind_serialize {σ : Type} {cfg : Cfg} {m : M σ Pkt} {s : σ} {n a b : Nat}
    (h : ∀ x s', m s = (.ok x, s') → (encPkt x).length ≤ n) (ha : n ≤ a) (hb : n ≤ b) :
    (m >>= fun x => (M.lift (coapSerialize cfg x a) : M σ Bytes)) s =
      (m >>= fun x => (M.lift (coapSerialize cfg x b) : M σ Bytes)) s := by
  rw [M.run_bind, M.run_bind]
  rcases hm : m s with ⟨r, s'⟩
  cases r with
  | ok x =>
    have := h x s' hm
    show M.lift _ s' = M.lift _ s'
    rw [serialize_room (by omega), serialize_room (by omega)]
  | err e => rfl
  | ub => rfl

theorem coseDecrypt_len {C : Crypto} (hC : C.Lawful) {ct nonce aad key pt : Bytes}
    (h : coseDecrypt C ct nonce aad key = .ok pt) : ct.length = pt.length + 8 := by
  unfold coseDecrypt at h
  obtain ⟨a, _, h2⟩ := R.bind_eq_ok.1 h
  cases hd : C.aeadDec key nonce a tagLen ct with
  | none => rw [hd] at h2; cases h2
  | some q => rw [hd] at h2; obtain rfl := R.ok.inj h2; exact hC.dec_len _ _ _ _ _ _ hd

theorem coseEncrypt_len {C : Crypto} (hC : C.Lawful) {ct nonce aad key pt : Bytes}
    (h : coseEncrypt C pt nonce aad key = .ok ct) : ct.length = pt.length + 8 := by
  unfold coseEncrypt at h
  obtain ⟨a, _, h2⟩ := R.bind_eq_ok.1 h
  cases hd : C.aeadEnc key nonce a tagLen pt with
  | none => rw [hd] at h2; cases h2
  | some q => rw [hd] at h2; obtain rfl := R.ok.inj h2; exact hC.enc_len _ _ _ _ _ _ hd

theorem generate_bytes {pt : Bytes} {p out : Pkt} (hp : numsOk 0 p.opts) (hpt : pt.length < 65536)
    (h : oCoapPkgGenerate pt p = .ok out) :
    (encPkt out).length + 1 ≤ 4 + p.token.length + (encOpts p.opts).length + pt.length := by
  unfold oCoapPkgGenerate at h
  obtain ⟨⟨code, e, payload⟩, h1, h2⟩ := R.bind_eq_ok.1 h
  obtain ⟨opts, h3, h4⟩ := R.bind_eq_ok.1 h2
  obtain rfl := R.ok.inj h4
  unfold payloadParser at h1
  cases pt with
  | nil => cases h1
  | cons k r =>
    obtain ⟨⟨o, q⟩, h5, h6⟩ := R.bind_eq_ok.1 h1
    have h6' := R.ok.inj h6
    simp only [Prod.mk.injEq] at h6'
    obtain ⟨rfl, rfl, rfl⟩ := h6'
    have hwf := (optionsDeserialize_wf h5).1
    unfold optionsDeserialize at h5
    obtain ⟨⟨oo, qq⟩, h7, h8⟩ := R.bind_eq_ok.1 h5
    have h8' := R.ok.inj h8
    simp only [Prod.mk.injEq] at h8'
    obtain ⟨rfl, rfl⟩ := h8'
    have hb := optionsParse_bytes (by simp only [List.length_cons] at hpt; omega) h7
    unfold optionsReorder at h3
    obtain ⟨_, _, h9⟩ := R.bind_eq_ok.1 h3
    obtain rfl := R.ok.inj h9
    have hm := merged_bytes (fun n => n != optOSCORE && n != optOBSERVE) hp hwf
    rw [encPkt_length]
    simp only [List.length_cons]
    omega

theorem dec_bytes {cfg : Cfg} {C : Crypto} (hC : C.Lawful) {opt : Option OscOpt} {inp : Bytes} {p : Pkt} {t} {c c' : Ctx} {x : Pkt × Bytes}
    (hlen : inp.length < 65536) (hp : coapParse inp = .ok (p, t)) (h : DecEffect cfg C opt p c (.ok x) c') :
    (encPkt x.1).length + 10 ≤ inp.length := by
  generalize hr : (R.ok x : R (Pkt × Bytes)) = r at h
  cases h with
  | unchanged hn => exact absurd hr.symm (hn x)
  | auth hread hnonce haad hpt hres =>
    rcases hres with ⟨out, uri, h1, h2, _⟩ | ⟨h1, _⟩
    · rw [← hr] at h1
      obtain rfl := R.ok.inj h1
      have hb := coapParse_size hlen hp
      have hl := coseDecrypt_len hC hpt
      have : p.payload.length ≠ 0 := by omega
      rw [if_neg this] at hb
      have := generate_bytes (coapParse_wf hp).1.nums (by omega) h2
      simp only
      omega
    · exact absurd hr.symm (h1 x)

theorem body_bytes {cfg : Cfg} {C : Crypto} (hC : C.Lawful) {o : OscOpt} {inp : Bytes} {p : Pkt} {t} {c c' : Ctx} {x : Pkt}
    (hlen : inp.length < 65536) (hp : coapParse inp = .ok (p, t)) (h : BodyEffect cfg C o p c (.ok x) c') :
    (encPkt x).length + 10 ≤ inp.length := by
  generalize hr : (R.ok x : R Pkt) = r at h
  cases h with
  | unchanged hn => exact absurd hr.symm (hn x)
  | reqFail _ _ _ _ _ hn => exact absurd hr.symm (hn x)
  | @reqOk out pt c1 r2 _ hreq hkid hrep hdec hafter =>
    obtain ⟨u, _, h2⟩ := R.bind_eq_ok.1 hr.symm
    obtain rfl := R.ok.inj h2
    have := dec_bytes hC hlen hp hdec
    exact this
  | rspFail _ _ _ _ hn => exact absurd hr.symm (hn x)
  | notifOk hreq hobs hpl hpiv hchk hdec => obtain rfl := R.ok.inj hr; have := dec_bytes hC hlen hp hdec; exact this
  | rspOk hreq hobs hopt hdec => obtain rfl := R.ok.inj hr; have := dec_bytes hC hlen hp hdec; exact this

theorem receive_room {cfg : Cfg} {C : Crypto} (hC : C.Lawful) {inp : Bytes} (hlen : inp.length < 65536) (c : Ctx) {a b : Nat}
    (ha : inp.length ≤ a + 10) (hb : inp.length ≤ b + 10) :
    oscore2coap cfg C inp a c = oscore2coap cfg C inp b c := by
  unfold oscore2coap
  simp only [M.bind_get]
  cases hf : checkFreshness c with
  | err e => simp only [M.bind_lift_err]
  | ub => simp only [M.bind_lift_ub]
  | ok u =>
  rw [M.bind_lift_ok, M.bind_lift_ok]
  cases hp : coapParse inp with
  | err e => simp only [M.bind_lift_err]
  | ub => simp only [M.bind_lift_ub]
  | ok pp =>
  obtain ⟨p, t⟩ := pp
  rw [M.bind_lift_ok, M.bind_lift_ok]
  cases ho : oscoreOptionParser t with
  | err e => simp only [M.bind_lift_err]
  | ub => simp only [M.bind_lift_ub]
  | ok o =>
  rw [M.bind_lift_ok, M.bind_lift_ok]
  generalize checkBufferSize cfg.maxPlaintext (sub32 p.payload.length 8) = hb
  cases hb with
  | err e => simp only [M.bind_lift_err]
  | ub => simp only [M.bind_lift_ub]
  | ok _ =>
  rw [M.bind_lift_ok, M.bind_lift_ok]
  cases hreq : isRequest p with
  | true =>
    simp only [if_true]
    refine bind_serialize (n := inp.length - 10) (fun x s' hx => ?_) (by omega) (by omega)
    have := unprotectRequest_effect cfg C o p c hreq
    rw [hx] at this
    have := body_bytes hC hlen hp this
    omega
  | false =>
    simp only [Bool.false_eq_true, if_false]
    refine bind_serialize (n := inp.length - 10) (fun x s' hx => ?_) (by omega) (by omega)
    have := unprotectResponse_effect cfg C o p c hreq
    rw [hx] at this
    have := body_bytes hC hlen hp this
    omega


/-! ### sending -/

/-- the options that are not (only) encrypted: Uri-Host, Observe, Uri-Port, OSCORE, EDHOC, Proxy-Uri, Proxy-Scheme -/
def staysOutside (n : Nat) : Bool := [3, 6, 7, 9, 21, 35, 39].contains n

/-- the bytes by which a message can grow: 25 for the OSCORE option, one for the payload marker, one for the code, 8 for the tag;
up to three for the header of every option that stays outside; and the value of Observe, which is sent inside and outside -/
def spareRoom : List Opt → Nat
  | [] => 35
  | o :: os => (if o.num = 6 then 3 + optExtraBytes o.len + o.len else if staysOutside o.num then 3 else 0) + spareRoom os

theorem staysOutside_eq (n : Nat) : staysOutside n = (n == optOBSERVE || !isClassE n) := by
  rw [Bool.eq_iff_iff]
  unfold staysOutside isClassE
  simp only [List.contains_cons, List.contains_nil, optOBSERVE, optURI_HOST, optURI_PORT, optOSCORE, optPROXY_URI, optPROXY_SCHEME, optEDHOC,
    Bool.or_eq_true, beq_iff_eq, Bool.not_eq_true', Bool.and_eq_false_iff, bne_eq_false_iff_eq, Bool.false_eq_true, or_false]
  omega

theorem inner_nums (req : Bool) (opts : List Opt) :
    (innerOpts req opts).map Opt.num = (opts.map Opt.num).filter (fun n => n == optOBSERVE || isClassE n) := by
  induction opts with
  | nil => rfl
  | cons o os ih =>
    unfold innerOpts at ih ⊢
    simp only [List.filterMap_cons, List.map_cons, List.filter_cons]
    by_cases h : o.num = optOBSERVE
    · simp [h, ih]
    · by_cases hc : isClassE o.num = true
      · simp [h, hc, ih]
      · simp [h, hc, ih]

theorem numBytes_outer {p : Nat} (l : List Opt) : numBytes p (l.map Opt.num) ≤ 3 * l.length := by
  induction l generalizing p with
  | nil => simp [numBytes]
  | cons o os ih =>
    have := ih (p := o.num)
    have : optExtraBytes ((o.num + 65536 - p) % 65536) ≤ 2 := by
      unfold optExtraBytes
      repeat' split
      all_goals omega
    simp only [List.map_cons, numBytes, List.length_cons]
    omega

theorem numBytes_le_hdr {p : Nat} {l : List Opt} (hp : p < 65536) (h : numsOk p l) : numBytes p (l.map Opt.num) ≤ hdrBytes l := by
  induction l generalizing p with
  | nil => exact Nat.le_refl _
  | cons o os ih =>
    obtain ⟨h1, h2⟩ := h
    have := ih (by omega) h2
    have : optExtraBytes ((o.num + 65536 - p) % 65536) ≤ optExtraBytes o.delta := ext_mono (by omega)
    simp only [List.map_cons, numBytes, hdrBytes]
    omega

theorem split_bytes (req : Bool) (opts : List Opt) :
    valBytes (innerOpts req opts) + valBytes (outerOpts opts) + 3 * (outerOpts opts).length + 35 ≤ valBytes opts + spareRoom opts := by
  induction opts with
  | nil => simp [innerOpts, outerOpts, valBytes, spareRoom]
  | cons o os ih =>
    simp only [spareRoom, staysOutside_eq]
    unfold innerOpts outerOpts at ih ⊢
    simp only [List.filterMap_cons, List.filter_cons]
    by_cases h : o.num = optOBSERVE
    · have h6 : o.num = 6 := h
      rw [if_pos h, if_pos h6]
      have : (o.num == optOBSERVE || !isClassE o.num) = true := by simp [h]
      simp only [this, if_true, valBytes, List.length_cons]
      have hz : optExtraBytes 0 = 0 := rfl
      cases req
      · simp only [Bool.false_eq_true, if_false, Opt.len, List.length_nil, hz] at ih ⊢; omega
      · simp only [if_true, Opt.len] at ih ⊢; omega
    · have h6 : ¬ o.num = 6 := h
      rw [if_neg h, if_neg h6]
      have hb : (o.num == optOBSERVE) = false := by simp [h]
      cases hc : isClassE o.num
      · simp only [hb, Bool.false_eq_true, if_false, Bool.not_false, Bool.or_true, if_true, valBytes, List.length_cons] at ih ⊢; omega
      · simp only [hb, if_true, Bool.not_true, Bool.or_false, Bool.false_eq_true, if_false, valBytes] at ih ⊢; omega

theorem protected_nums {p : Nat} (hp : p ≤ 9) (v : Bytes) (u : List Opt) (hu : ∀ o ∈ u, o.num < 65536) :
    numBytes p ((protectedOpts u v).map Opt.num) ≤ 1 + numBytes p (u.map Opt.num) := by
  have e9 : optExtraBytes ((9 + 65536 - p) % 65536) = 0 := by
    unfold optExtraBytes; rw [if_pos (by omega)]
  induction u generalizing p with
  | nil => simp [protectedOpts, numBytes, optOSCORE, e9]
  | cons o os ih =>
    by_cases h : o.num ≤ optOSCORE
    · have h9 : o.num ≤ 9 := h
      have e9' : optExtraBytes ((9 + 65536 - o.num) % 65536) = 0 := by
        unfold optExtraBytes; rw [if_pos (by omega)]
      have := ih h9 (fun x hx => hu x (List.mem_cons_of_mem _ hx)) e9'
      unfold protectedOpts at this ⊢
      rw [List.takeWhile_cons, List.dropWhile_cons]
      simp only [decide_eq_true h, if_true, List.cons_append, List.map_cons, numBytes] at this ⊢
      omega
    · have hl := hu o (by simp)
      have h9 : ¬ o.num ≤ 9 := h
      unfold protectedOpts
      rw [List.takeWhile_cons, List.dropWhile_cons, decide_eq_false h]
      simp only [Bool.false_eq_true, if_false, List.nil_append, List.cons_append, List.map_cons, numBytes, optOSCORE, e9]
      have : optExtraBytes ((o.num + 65536 - 9) % 65536) ≤ optExtraBytes ((o.num + 65536 - p) % 65536) := ext_mono (by omega)
      omega

theorem valBytes_protected (u : List Opt) (v : Bytes) : valBytes (protectedOpts u v) = valBytes u + (optExtraBytes v.length + v.length) := by
  have := congrArg valBytes (List.takeWhile_append_dropWhile (p := fun o : Opt => decide (o.num ≤ optOSCORE)) (l := u))
  rw [valBytes_append] at this
  unfold protectedOpts
  rw [valBytes_append, valBytes_append]
  simp only [valBytes, Opt.len]
  omega

theorem optval_len {piv kid kctx v : Bytes} (h : oscoreOptionGenerate piv kid kctx = .ok v) : v.length ≤ 23 := by
  unfold oscoreOptionGenerate at h
  obtain ⟨u, h1, h2⟩ := R.bind_eq_ok.1 h
  have h1' := checkBufferSize_ok.1 h1
  split at h2
  · obtain rfl := R.ok.inj h2; exact Nat.zero_le _
  · rename_i hz
    obtain rfl := R.ok.inj h2
    unfold oscoreOptValLen at h1' hz
    simp only at h1' hz
    simp only [List.length_cons, List.length_append]
    by_cases hk : kctx.length = 0
    · rw [if_pos hk]
      simp only [hk, Nat.add_zero, ne_eq, not_true_eq_false, if_false, List.length_nil] at *
      by_cases hl : piv.length + kid.length = 0
      · omega
      · rw [if_pos hl] at h1'; omega
    · rw [if_neg hk]
      have : piv.length + kid.length + kctx.length ≠ 0 := by omega
      rw [if_pos this, if_pos hk] at h1'
      simp only [List.length_cons]
      omega

theorem setup_len {cfg : Cfg} {p : Pkt} {e : List Opt} {n : Nat} {pt : Bytes} (h : plaintextSetup cfg p e n = .ok pt) :
    pt.length ≤ 1 + (encOpts e).length + (if p.payload.length = 0 then 0 else 1 + p.payload.length) := by
  unfold plaintextSetup at h
  obtain ⟨s1, h1, h2⟩ := R.bind_eq_ok.1 h
  obtain ⟨s2, h3, h4⟩ := R.bind_eq_ok.1 h2
  have e1 := (optionsSerialize_ok.1 h1).1
  have e2 := (memcpyS_ok.1 h3).1
  subst e1
  subst e2
  split at h4
  · rename_i hz
    split at h4
    · cases h4
    · obtain rfl := R.ok.inj h4
      rw [if_pos hz]; simp; omega
  · rename_i hz
    rw [if_neg hz]
    split at h4
    · cases h4
    · obtain ⟨pl, h5, h6⟩ := R.bind_eq_ok.1 h4
      have e3 := (memcpyS_ok.1 h5).1
      subst e3
      simp only at h6
      split at h6
      · cases h6
      · split at h6
        · cases h6
        · obtain rfl := R.ok.inj h6
          simp only [List.length_take, List.length_cons, List.length_append, List.length_nil]
          omega

theorem enc_result {cfg : Cfg} {C : Crypto} (hC : C.Lawful) {nvmW : Option Err} {pt : Bytes} {p : Pkt} {w w' : World} {x : Bytes × Bytes}
    (h : encryptWrapper cfg C nvmW pt p w = (.ok x, w')) : x.1.length = pt.length + 8 ∧ x.2.length ≤ 23 := by
  have he := encryptWrapper_effect cfg C nvmW pt p w
  rw [h] at he
  simp only at he
  generalize hr : (R.ok x : R (Bytes × Bytes)) = r at he
  cases he with
  | unchanged hn => exact absurd hr.symm (hn x)
  | consumed hn _ => exact absurd hr.symm (hn x)
  | fresh hn hw hpiv hnonce hopt hread haad hct hres =>
    rcases hres with ⟨h1, _⟩ | ⟨h1, _⟩
    · rw [← hr] at h1
      obtain rfl := R.ok.inj h1
      exact ⟨coseEncrypt_len hC hct, optval_len hopt⟩
    · exact absurd hr.symm (h1 x)
  | reuse hn hopt hread haad hct hres =>
    rcases hres with ⟨h1, _⟩ | ⟨h1, _⟩
    · rw [← hr] at h1
      obtain rfl := R.ok.inj h1
      exact ⟨coseEncrypt_len hC hct, optval_len hopt⟩
    · exact absurd hr.symm (h1 x)

/-- the protected message is at most `spareRoom` bytes longer -/
theorem pkg_bytes {inp : Bytes} {p : Pkt} (hlen : inp.length < 65536) (hp : coapDeserialize inp = .ok p) {pt ct v : Bytes}
    (hpt : pt.length ≤ 1 + (encOpts (redelta 0 (innerOpts (isRequest p) p.opts))).length + (if p.payload.length = 0 then 0 else 1 + p.payload.length))
    (hct : ct.length = pt.length + 8) (hv : v.length ≤ 23) :
    (encPkt (oscorePkgGenerate p (redelta 0 (outerOpts p.opts)) ct v)).length ≤ inp.length + spareRoom p.opts := by
  have hwf := coapDeserialize_wf hp
  have hpb : 4 + p.token.length + (encOpts p.opts).length + (if p.payload.length = 0 then 0 else 1 + p.payload.length) ≤ inp.length := by
    unfold coapDeserialize at hp
    obtain ⟨⟨q, t⟩, h1, h2⟩ := R.bind_eq_ok.1 hp
    obtain rfl := R.ok.inj h2
    exact coapParse_size hlen h1
  have hn : ∀ x ∈ p.opts.map Opt.num, x < 65536 := by
    intro x hx; obtain ⟨o, ho, rfl⟩ := List.mem_map.1 hx; exact numsOk_lt hwf.nums o ho
  have hb := split_bytes (isRequest p) p.opts
  have hin := numBytes_filter (fun n => n == optOBSERVE || isClassE n) (p := 0) (by omega) _ hn
  rw [← inner_nums (isRequest p)] at hin
  have hall := numBytes_le_hdr (p := 0) (by omega) hwf.nums
  have hu : ∀ o ∈ redelta 0 (outerOpts p.opts), o.num ≤ 39 := redelta_outer_le
  rw [encPkt_length, oscorePkg_opts hu]
  have hout := protected_nums (p := 0) (by omega) v (redelta 0 (outerOpts p.opts)) (fun o ho => by have := hu o ho; omega)
  have h3 := numBytes_outer (p := 0) (redelta 0 (outerOpts p.opts))
  rw [redelta_length] at h3
  have hpl : (oscorePkgGenerate p (redelta 0 (outerOpts p.opts)) ct v).payload = ct := rfl
  have htk : (oscorePkgGenerate p (redelta 0 (outerOpts p.opts)) ct v).token = p.token := rfl
  rw [hpl, htk, if_neg (by omega)]
  rw [encOpts_len, hdrBytes_redelta, valBytes_redelta, valBytes_protected, valBytes_redelta]
  rw [encOpts_len, hdrBytes_redelta, valBytes_redelta] at hpt
  rw [encOpts_len] at hpb
  have : optExtraBytes v.length ≤ 1 := by
    unfold optExtraBytes
    repeat' split
    all_goals omega
  omega

/-- the part of `coap2oscore` before the output buffer is touched -/
def protectBody (cfg : Cfg) (C : Crypto) (nvmW : Option Err) (p : Pkt) : M World Pkt := do
  let s ← M.lift (optionSplit p)
  M.lift (checkBufferSize cfg.maxPlaintext (plaintextLen p s.eLen))
  let pt ← M.lift (plaintextSetup cfg p s.e (plaintextLen p s.eLen))
  cacheEcho s.e
  let (ct, opt) ← encryptWrapper cfg C nvmW pt p
  pure (oscorePkgGenerate p s.u ct opt)

theorem protectPkt_body (cfg : Cfg) (C : Crypto) (nvmW : Option Err) (p : Pkt) (cap : Nat) (w : World) :
    protectPkt cfg C nvmW p cap w = (protectBody cfg C nvmW p >>= fun x => (M.lift (coapSerialize cfg x cap) : M World Bytes)) w := by
  have as : ∀ {α β γ : Type} (m : M World α) (f : α → M World β) (g : β → M World γ),
      (m >>= f) >>= g = m >>= fun a => f a >>= g := fun m f g => funext fun s => M.bind_assoc ..
  have pu : ∀ {α β : Type} (a : α) (f : α → M World β), (pure a >>= f) = f a := fun a f => rfl
  unfold protectPkt protectBody
  simp only [as, pu]

theorem protectBody_bytes {cfg : Cfg} {C : Crypto} (hC : C.Lawful) {nvmW : Option Err} {inp : Bytes} {p : Pkt} (hlen : inp.length < 65536)
    (hp : coapDeserialize inp = .ok p) {w w' : World} {x : Pkt} (h : protectBody cfg C nvmW p w = (.ok x, w')) :
    (encPkt x).length ≤ inp.length + spareRoom p.opts := by
  unfold protectBody at h
  obtain ⟨s, w1, h1, h2⟩ := M.bind_eq_ok.1 h
  obtain ⟨u, w2, h3, h4⟩ := M.bind_eq_ok.1 h2
  obtain ⟨pt, w3, h5, h6⟩ := M.bind_eq_ok.1 h4
  obtain ⟨u2, w4, h7, h8⟩ := M.bind_eq_ok.1 h6
  obtain ⟨y, w5, h9, h10⟩ := M.bind_eq_ok.1 h8
  have hx : oscorePkgGenerate p s.u y.1 y.2 = x := R.ok.inj (congrArg Prod.fst h10)
  obtain ⟨l1, l2⟩ := enc_result hC h9
  have hs : optionSplit p = .ok s := congrArg Prod.fst h1
  obtain ⟨_, hseq⟩ := optionSplit_ok (coapDeserialize_wf hp).nums hs
  have hpt : plaintextSetup cfg p s.e (plaintextLen p s.eLen) = .ok pt := congrArg Prod.fst h5
  have l3 := setup_len hpt
  rw [← hx]
  rw [hseq] at l3 ⊢
  exact pkg_bytes hlen hp l3 l1 l2

theorem send_room {cfg : Cfg} {C : Crypto} (hC : C.Lawful) (nvmW : Option Err) {inp : Bytes} {p : Pkt} (hlen : inp.length < 65536)
    (hp : coapDeserialize inp = .ok p) (w : World) {a b : Nat} (ha : inp.length + spareRoom p.opts ≤ a) (hb : inp.length + spareRoom p.opts ≤ b) :
    coap2oscore cfg C nvmW inp a w = coap2oscore cfg C nvmW inp b w := by
  unfold coap2oscore
  simp only [M.bind_get]
  cases hf : checkFreshness w.ctx with
  | err e => simp only [M.bind_lift_err]
  | ub => simp only [M.bind_lift_ub]
  | ok u =>
  rw [M.bind_lift_ok, M.bind_lift_ok, hp, M.bind_lift_ok, M.bind_lift_ok]
  split
  · rw [if_neg (by omega), if_neg (by omega)]
  · rw [protectPkt_body, protectPkt_body]
    exact bind_serialize (fun x s' hx => protectBody_bytes hC hlen hp hx) ha hb


theorem serialize_exact {σ : Type} {cfg : Cfg} {m : M σ Pkt} {s s' : σ} {a : Nat} {b : Bytes}
    (h : (m >>= fun x => (M.lift (coapSerialize cfg x a) : M σ Bytes)) s = (.ok b, s')) :
    (∀ cap, b.length ≤ cap → (m >>= fun x => (M.lift (coapSerialize cfg x cap) : M σ Bytes)) s = (.ok b, s')) ∧
      ∀ cap, cap < b.length → ∀ b', ((m >>= fun x => (M.lift (coapSerialize cfg x cap) : M σ Bytes)) s).1 ≠ .ok b' := by
  obtain ⟨x, s1, h1, h2⟩ := M.bind_eq_ok.1 h
  obtain ⟨e1, e2, e3⟩ := coapSerialize_ok.1 (congrArg Prod.fst h2 : coapSerialize cfg x a = .ok b)
  have e4 : s1 = s' := congrArg Prod.snd h2
  subst e4
  constructor
  · intro cap hc
    rw [M.run_bind, h1]
    show M.lift _ s1 = _
    rw [coapSerialize_ok.2 ⟨e1, hc, e3⟩]
    rfl
  · intro cap hc b' hb
    rw [M.run_bind, h1] at hb
    obtain ⟨f1, f2, _⟩ := coapSerialize_ok.1 (hb : coapSerialize cfg x cap = .ok b')
    rw [f1, ← e1] at f2
    omega

/-- the part of `oscore2coap` before the output buffer is touched -/
def unprotectBody (cfg : Cfg) (C : Crypto) (inp : Bytes) : M Ctx Pkt := do
  let c ← M.get
  M.lift (checkFreshness c)
  let (p, t) ← M.lift (coapParse inp)
  let o ← M.lift (oscoreOptionParser t)
  M.lift (checkBufferSize cfg.maxPlaintext (sub32 p.payload.length 8))
  if isRequest p then unprotectRequest cfg C o p else unprotectResponse cfg C o p

theorem oscore2coap_body (cfg : Cfg) (C : Crypto) (inp : Bytes) (cap : Nat) (c : Ctx) :
    oscore2coap cfg C inp cap c = (unprotectBody cfg C inp >>= fun x => (M.lift (coapSerialize cfg x cap) : M Ctx Bytes)) c := by
  have as : ∀ {α β γ : Type} (m : M Ctx α) (f : α → M Ctx β) (g : β → M Ctx γ),
      (m >>= f) >>= g = m >>= fun a => f a >>= g := fun m f g => funext fun s => M.bind_assoc ..
  unfold oscore2coap unprotectBody
  have it : ∀ {α β : Type} (q : Bool) (m n : M Ctx α) (f : α → M Ctx β),
      (if q = true then m else n) >>= f = if q = true then m >>= f else n >>= f := by
    intro α β q m n f; cases q <;> rfl
  simp only [as, it]

theorem oscore2coap_ok {cfg : Cfg} {C : Crypto} {inp : Bytes} {cap : Nat} {c : Ctx} {b : Bytes}
    (h : (oscore2coap cfg C inp cap c).1 = .ok b) : 4 ≤ b.length ∧ b.length ≤ cap := by
  rw [oscore2coap_body] at h
  rcases hx : (unprotectBody cfg C inp >>= fun x => (M.lift (coapSerialize cfg x cap) : M Ctx Bytes)) c with ⟨r, c2⟩
  rw [hx] at h
  simp only at h
  subst h
  obtain ⟨x, s1, _, h2⟩ := M.bind_eq_ok.1 hx
  have h3 : coapSerialize cfg x cap = .ok b := congrArg Prod.fst h2
  obtain ⟨e1, e2, _⟩ := coapSerialize_ok.1 h3
  refine ⟨?_, e2⟩
  rw [e1, encPkt_length]
  omega

/-! ### the property -/

/-- **Receiving: a buffer ten bytes shorter than the packet is always enough.**  The result and the context are those of a call with any
larger buffer; what is delivered is at least ten bytes shorter than what was received. -/
theorem C85_receive (cfg : Cfg) {C : Crypto} (hC : C.Lawful) {inp : Bytes} (hlen : inp.length < 65536) (c : Ctx) {cap : Nat}
    (hcap : inp.length ≤ cap + 10) :
    oscore2coap cfg C inp cap c = oscore2coap cfg C inp inp.length c ∧
      ∀ b, (oscore2coap cfg C inp cap c).1 = .ok b → b.length + 10 ≤ inp.length := by
  have heq := receive_room (cfg := cfg) hC hlen c hcap (b := inp.length - 10) (by omega)
  refine ⟨receive_room hC hlen c hcap (by omega), ?_⟩
  intro b hb
  by_cases h10 : inp.length < 10
  · have := receive_room (cfg := cfg) hC hlen c hcap (b := 0) (by omega)
    rw [this] at hb
    have := oscore2coap_ok hb
    omega
  · rw [heq] at hb
    have := oscore2coap_ok hb
    omega

/-- **Sending: a buffer `spareRoom` bytes larger than the packet is always enough.** -/
theorem C85_send (cfg : Cfg) {C : Crypto} (hC : C.Lawful) (nvmW : Option Err) {inp : Bytes} {p : Pkt} (hlen : inp.length < 65536)
    (hp : coapDeserialize inp = .ok p) (w : World) {cap : Nat} (hcap : inp.length + spareRoom p.opts ≤ cap) :
    coap2oscore cfg C nvmW inp cap w = coap2oscore cfg C nvmW inp (inp.length + spareRoom p.opts) w ∧
      ∀ b, (coap2oscore cfg C nvmW inp cap w).1 = .ok b → b.length ≤ inp.length + spareRoom p.opts := by
  have heq := send_room (cfg := cfg) hC nvmW hlen hp w hcap (Nat.le_refl _)
  refine ⟨heq, ?_⟩
  intro b hb
  rw [heq] at hb
  generalize inp.length + spareRoom p.opts = n at hb
  have he := coap2oscore_effect cfg C nvmW inp n w
  generalize hr : (coap2oscore cfg C nvmW inp n w).1 = r at he hb
  generalize (coap2oscore cfg C nvmW inp n w).2 = w' at he
  subst hb
  clear hr
  generalize hr : (R.ok b : R Bytes) = r at he
  cases he with
  | unchanged hn => exact absurd hr.symm (hn b)
  | emptyAck _ _ _ hc => obtain rfl := R.ok.inj hr; exact hc
  | enc _ _ _ _ _ _ _ _ =>
    obtain ⟨x, _, hout⟩ := R.bind_eq_ok.1 hr.symm
    exact (coapSerialize_ok.1 hout).2.1

/-- 64 extra bytes suffice for every ordinary packet -/
theorem C85_send_64 (cfg : Cfg) {C : Crypto} (hC : C.Lawful) (nvmW : Option Err) {inp : Bytes} {p : Pkt} (hlen : inp.length < 65536)
    (hp : coapDeserialize inp = .ok p) (w : World) {cap : Nat} (h8 : (p.opts.filter (fun o => staysOutside o.num)).length ≤ 8)
    (h1 : (p.opts.filter (fun o => o.num == 6)).length ≤ 1) (h3 : ∀ o ∈ p.opts, o.num = 6 → o.value.length ≤ 3)
    (hcap : inp.length + 64 ≤ cap) :
    coap2oscore cfg C nvmW inp cap w = coap2oscore cfg C nvmW inp (inp.length + 64) w := by
  have : ∀ l : List Opt, (∀ o ∈ l, o.num = 6 → o.value.length ≤ 3) →
      spareRoom l ≤ 35 + 3 * (l.filter (fun o => staysOutside o.num)).length + 3 * (l.filter (fun o => o.num == 6)).length := by
    intro l hl
    induction l with
    | nil => simp [spareRoom]
    | cons o os ih =>
      have := ih (fun x hx => hl x (List.mem_cons_of_mem _ hx))
      simp only [spareRoom, List.filter_cons]
      by_cases h6 : o.num = 6
      · have h := hl o (by simp) h6
        have hz : optExtraBytes o.value.length = 0 := by
          unfold optExtraBytes; rw [if_pos (by omega)]
        have hs : staysOutside o.num = true := by rw [h6]; decide
        have h6' : (o.num == 6) = true := by simp [h6]
        simp only [if_pos h6, hs, h6', if_true, List.length_cons, Opt.len, hz]
        omega
      · have h6' : (o.num == 6) = false := by simp [h6]
        simp only [if_neg h6, h6', Bool.false_eq_true, if_false]
        split
        · rw [List.length_cons]; omega
        · omega
  have := this p.opts h3
  exact send_room hC nvmW hlen hp w (by omega) (by omega)

/-- **The buffer has to be exactly as large as the result.**  Whenever a call of either function succeeds, the same call with any buffer
that holds the result succeeds in the same way, and with a smaller one it fails. -/
theorem C85_exact_send {cfg : Cfg} {C : Crypto} {nvmW : Option Err} {inp : Bytes} {a : Nat} {w w' : World} {b : Bytes}
    (h : coap2oscore cfg C nvmW inp a w = (.ok b, w')) :
    (∀ cap, b.length ≤ cap → coap2oscore cfg C nvmW inp cap w = (.ok b, w')) ∧
      ∀ cap, cap < b.length → ∀ b', (coap2oscore cfg C nvmW inp cap w).1 ≠ .ok b' := by
  unfold coap2oscore at h ⊢
  simp only [M.bind_get] at h ⊢
  cases hf : checkFreshness w.ctx with
  | err e => rw [hf, M.bind_lift_err] at h; cases h
  | ub => rw [hf, M.bind_lift_ub] at h; cases h
  | ok u =>
  simp only [hf, M.bind_lift_ok] at h ⊢
  cases hp : coapDeserialize inp with
  | err e => rw [hp, M.bind_lift_err] at h; cases h
  | ub => rw [hp, M.bind_lift_ub] at h; cases h
  | ok p =>
  simp only [hp, M.bind_lift_ok] at h ⊢
  split at h
  · rename_i hk
    simp only [if_pos hk]
    have h1 : (if a < inp.length then R.ub else .ok inp) = .ok b := congrArg Prod.fst h
    have h2 : w = w' := congrArg Prod.snd h
    subst h2
    split at h1
    · cases h1
    · obtain rfl := R.ok.inj h1
      refine ⟨fun cap hc => ?_, fun cap hc b' hb => ?_⟩
      · rw [if_neg (by omega)]; rfl
      · rw [if_pos hc] at hb; cases hb
  · rename_i hk
    simp only [if_neg hk, protectPkt_body] at h ⊢
    exact serialize_exact h

theorem C85_exact_receive {cfg : Cfg} {C : Crypto} {inp : Bytes} {a : Nat} {c c' : Ctx} {b : Bytes}
    (h : oscore2coap cfg C inp a c = (.ok b, c')) :
    (∀ cap, b.length ≤ cap → oscore2coap cfg C inp cap c = (.ok b, c')) ∧
      ∀ cap, cap < b.length → ∀ b', (oscore2coap cfg C inp cap c).1 ≠ .ok b' := by
  simp only [oscore2coap_body] at h ⊢
  exact serialize_exact h

/-! ### examples -/

/-- a client with a 4-byte ID, a 14-byte ID context and a sequence number of three bytes -/
def exLong : Ctx := { exClient with senderId := [1, 2, 3, 4], idContext := List.replicate 14 7, ssn := 0x10000 }

/-- the bound is reached: a GET grows by exactly 35 bytes, and with one byte less the call fails -/
theorem ex_C85_tight :
    (∃ p, coapDeserialize exGet = .ok p ∧ spareRoom p.opts = 35) ∧
      ((coap2oscore exCfg toyCrypto none exGet (exGet.length + 35) (exW exLong)).1.isOk = true ∧
        (coap2oscore exCfg toyCrypto none exGet (exGet.length + 34) (exW exLong)).1 = .err .buffer_to_small) := by
  refine ⟨⟨_, rfl, rfl⟩, ?_, ?_⟩
  · decide +kernel
  · decide +kernel

/-- an Observe registration with Uri-Host: all hypotheses of `C85_send_64` hold, and the packet is sent -/
def exObsHost : Bytes := [0x41, 0x01, 0x12, 0x34, 0x4A, 0x32, 0x61, 0x62, 0x30, 0x52, 0x74, 0x76]

theorem ex_C85_send : ∃ p, coapDeserialize exObsHost = .ok p ∧ spareRoom p.opts = 41 ∧
    (p.opts.filter (fun o => staysOutside o.num)).length ≤ 8 ∧ (p.opts.filter (fun o => o.num == 6)).length ≤ 1 ∧
    (∀ o ∈ p.opts, o.num = 6 → o.value.length ≤ 3) ∧
    (coap2oscore exCfg toyCrypto none exObsHost (exObsHost.length + 64) (exW exClient)).1.isOk = true := by
  refine ⟨_, rfl, rfl, by decide, by decide, by decide, ?_⟩
  decide +kernel

/-- a received request of 22 bytes is delivered in 8; a buffer of 8 bytes is enough, one of 7 is not -/
theorem ex_C85_receive :
    (sendOf exCfg (exW exClient) exGet).length = 22 ∧
    (oscore2coap exCfg toyCrypto (sendOf exCfg (exW exClient) exGet) (22 - 10) exServer).1.isOk = true ∧
      (oscore2coap exCfg toyCrypto (sendOf exCfg (exW exClient) exGet) 8 exServer).1 = .ok exGet ∧
      (oscore2coap exCfg toyCrypto (sendOf exCfg (exW exClient) exGet) 7 exServer).1 = .err .buffer_to_small := by
  refine ⟨?_, ?_, ?_, ?_⟩ <;> decide +kernel

end Verif
