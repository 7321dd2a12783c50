import Verif.Model.InPlace
import Verif.Props.Coap
import Verif.Props.KeyUpdate
import Verif.Lemmas.MLemmas
import Verif.Lemmas.Examples
/-
C95: the buffers of the caller.  A call writes only to the output buffer; the output buffer may be the input buffer itself.
-/
namespace Verif.InPlace
open Verif Verif.Edhoc

/-! ### memory -/

theorem memcpyS_eq (n : Nat) (v : Bytes) : memcpyS n v = if v.length ≤ n then .ok v else .err .buffer_to_small := by
  unfold memcpyS checkBufferSize
  by_cases h0 : v.length = 0
  · have : v = [] := List.length_eq_zero_iff.1 h0
    subst this; simp
  · rw [if_neg h0]
    by_cases h : v.length ≤ n
    · rw [if_pos h, if_neg (by omega)]; rfl
    · rw [if_neg h, if_pos (by omega)]; rfl

theorem copyTo_eq (d n : Nat) (v m : Bytes) :
    copyTo d n v m = if v.length ≤ n then (.ok (), blit m d v) else (.err .buffer_to_small, m) := by
  unfold copyTo
  rw [memcpyS_eq]
  by_cases h : v.length ≤ n
  · rw [if_pos h, if_pos h]; rfl
  · rw [if_neg h, if_neg h]; rfl

theorem blit_length {m v : Bytes} {o : Nat} (h : o + v.length ≤ m.length) : (blit m o v).length = m.length := by
  unfold blit
  simp only [List.length_append, List.length_take, List.length_drop]; omega

/-- what is at the addresses outside `[lo, hi)` is the same -/
def SameOutside (lo hi : Nat) (m m' : Bytes) : Prop :=
  m'.length = m.length ∧ ∀ s : Span, s.ptr + s.len ≤ lo ∨ hi ≤ s.ptr → peek m' s = peek m s

theorem same_refl (lo hi : Nat) (m : Bytes) : SameOutside lo hi m m := ⟨rfl, fun _ _ => rfl⟩

theorem same_blit {lo hi o : Nat} {m v : Bytes} (h1 : lo ≤ o) (h2 : o + v.length ≤ hi) (h3 : hi ≤ m.length) :
    SameOutside lo hi m (blit m o v) :=
  ⟨blit_length (by omega), fun s hs => peek_blit (by omega) (by omega)⟩

/-- steps that write only inside `[lo, hi)` -/
def Inside (lo hi : Nat) (m m' : Bytes) : Prop := hi ≤ m.length → SameOutside lo hi m m'

theorem inside_trans {lo hi : Nat} (a b c : Bytes) (h1 : Inside lo hi a b) (h2 : Inside lo hi b c) : Inside lo hi a c := by
  intro h
  obtain ⟨l1, p1⟩ := h1 h
  obtain ⟨l2, p2⟩ := h2 (by omega)
  exact ⟨by omega, fun s hs => (p2 s hs).trans (p1 s hs)⟩

theorem inside_refl {lo hi : Nat} (a : Bytes) : Inside lo hi a a := fun _ => same_refl _ _ _

theorem copyTo_inside {out cap x : Nat} (v : Bytes) : M.Rel (Inside out (out + cap)) (copyTo (out + x) (cap - x) v) := by
  intro m
  rw [copyTo_eq]
  split
  · by_cases hv : v = []
    · subst hv; dsimp only; rw [blit_nil]; exact inside_refl m
    · have : 0 < v.length := List.length_pos_iff.2 hv
      exact fun h => same_blit (by omega) (by omega) h
  · exact inside_refl m

theorem serializeMem_inside (cfg : Cfg) (q : PktP) (out cap : Nat) : M.Rel (Inside out (out + cap)) (serializeMem cfg q out cap) := by
  unfold serializeMem
  split
  · exact M.Rel.lift inside_refl _
  · rename_i hc
    have ht := @inside_trans out (out + cap)
    refine M.Rel.bind ht (M.Rel.modify fun m h => same_blit (Nat.le_refl _) (by simp only [List.length_cons, List.length_nil]; omega) h) fun _ => ?_
    refine M.Rel.bind ht (M.Rel.get inside_refl) fun m => ?_
    refine M.Rel.bind ht (copyTo_inside _) fun _ => ?_
    refine M.Rel.bind ht (M.Rel.get inside_refl) fun m => ?_
    refine M.Rel.bind ht (M.Rel.lift inside_refl _) fun _ => ?_
    refine M.Rel.bind ht (M.Rel.lift inside_refl _) fun ob => ?_
    rw [Nat.add_assoc out 4]
    refine M.Rel.bind ht (copyTo_inside _) fun _ => ?_
    split
    · exact M.Rel.pure inside_refl _
    · split
      · exact M.Rel.lift inside_refl _
      · rename_i h2
        refine M.Rel.bind ht (M.Rel.modify fun m h => same_blit (by omega) (by simp only [List.length_cons, List.length_nil]; omega) h) fun _ => ?_
        have e : out + (4 + q.token.len) + ob.length + 1 = out + (4 + q.token.len + ob.length + 1) := by omega
        rw [e]
        exact M.Rel.bind ht (copyTo_inside _) fun _ => M.Rel.pure inside_refl _

/-- a pointer that the header and the token written at `out` do not hit -/
def Src.Clear (out n : Nat) : Src → Prop
  | .mem s => out + n ≤ s.ptr ∨ s.ptr + s.len ≤ out
  | .loc _ => True

theorem Src.read_blit {out : Nat} {m v : Bytes} {s : Src} (h : s.Clear out v.length) (hb : out + v.length ≤ m.length) :
    s.read (blit m out v) = s.read m := by
  cases s with
  | loc b => rfl
  | mem s => exact peek_blit hb h

theorem readAll_blit {out : Nat} {m v : Bytes} {l : List OptP} (h : ∀ o ∈ l, o.val.Clear out v.length) (hb : out + v.length ≤ m.length) :
    l.map (OptP.read (blit m out v)) = l.map (OptP.read m) := by
  refine List.map_congr_left fun o ho => ?_
  unfold OptP.read
  rw [Src.read_blit (h o ho) hb]

/-- what a call that fails or succeeds like `v` does in memory: on success the message is in the output buffer -/
def Writes (out cap : Nat) (m : Bytes) (v : R Bytes) (r : R Nat × Bytes) : Prop :=
  match v with
  | .ok b => r = (.ok b.length, blit m out b) ∧ b.length ≤ cap
  | .err e => r.1 = .err e
  | .ub => r.1 = .ub

theorem serializeMem_eq {cfg : Cfg} {q : PktP} {out cap : Nat} {m : Bytes} (hb : out + cap ≤ m.length)
    (ht : q.token.ptr + q.token.len ≤ m.length) (htc : out + 4 ≤ q.token.ptr ∨ q.token.ptr + q.token.len ≤ out)
    (ho : 4 + q.token.len ≤ cap → ∀ o ∈ q.opts, o.val.Clear out (4 + q.token.len)) :
    Writes out cap m (coapSerialize cfg (q.read m) cap) (serializeMem cfg q out cap m) := by
  unfold serializeMem coapSerialize
  by_cases hc : cap < 4
  · rw [if_pos hc, if_pos hc]; rfl
  rw [if_neg hc, if_neg hc]
  have hl : (peek m q.token).length = q.token.len := peek_length ht
  have hh : coapHeaderBytes (q.read m) = [byte (q.ver * 64 + q.type * 16 + q.token.len), q.code, byte (q.mid / 256), byte (q.mid % 256)] := by
    unfold coapHeaderBytes PktP.read; rw [hl]
  rw [M.bind_modify, M.bind_get, ← hh]
  generalize hH : coapHeaderBytes (q.read m) = H at hh ⊢
  have hHl : H.length = 4 := by rw [hh]; rfl
  have e1 : peek (blit m out H) q.token = peek m q.token := peek_blit (by omega) (by omega)
  rw [e1, memcpyS_eq]
  have et : (q.read m).token = peek m q.token := rfl
  have ep : (q.read m).payload = q.payload := rfl
  have eo : (q.read m).opts = q.opts.map (OptP.read m) := rfl
  rw [et, ep, eo]
  by_cases h1 : (peek m q.token).length ≤ cap - 4
  rotate_left
  · rw [if_neg h1, M.run_bind, copyTo_eq, if_neg h1]; rfl
  rw [if_pos h1, M.bind_ok (by rw [copyTo_eq, if_pos h1]), R.ok_bind, M.bind_get]
  have e2 : blit (blit m out H) (out + 4) (peek m q.token) = blit m out (H ++ peek m q.token) := by
    rw [← hHl]; exact blit_blit (by omega) _ _
  rw [e2]
  have hHt : (H ++ peek m q.token).length = 4 + q.token.len := by rw [List.length_append, hHl, hl]
  rw [readAll_blit (by rw [hHt]; exact ho (by omega)) (by omega)]
  generalize q.opts.map (OptP.read m) = opts
  cases hk : checkBufferSize cfg.maxCoapOptions (optBytesLen opts) with
  | err e => rfl
  | ub => rfl
  | ok u =>
  rw [R.ok_bind, M.bind_lift_ok]
  cases hs : optionsSerialize opts (optBytesLen opts) with
  | err e => rfl
  | ub => rfl
  | ok ob =>
  rw [R.ok_bind, M.bind_lift_ok, memcpyS_eq, hl]
  by_cases h2 : ob.length ≤ cap - (4 + q.token.len)
  rotate_left
  · rw [if_neg h2, M.run_bind, copyTo_eq, if_neg h2]; rfl
  rw [if_pos h2, R.ok_bind, M.bind_ok (by rw [copyTo_eq, if_pos h2])]
  have e3 : blit (blit m out (H ++ peek m q.token)) (out + 4 + q.token.len) ob = blit m out (H ++ peek m q.token ++ ob) := by
    rw [Nat.add_assoc out, ← hHt]; exact blit_blit (by omega) _ _
  rw [e3]
  have hl3 : (H ++ peek m q.token ++ ob).length = 4 + q.token.len + ob.length := by rw [List.length_append, hHt]
  by_cases h3 : q.payload.length = 0
  · rw [if_pos h3, if_pos h3]
    exact ⟨by rw [hl3]; rfl, by omega⟩
  rw [if_neg h3, if_neg h3]
  by_cases h4 : 4 + q.token.len + ob.length ≥ cap
  · rw [if_pos h4, if_pos h4]; rfl
  rw [if_neg h4, if_neg h4, M.bind_modify, memcpyS_eq]
  by_cases h5 : q.payload.length ≤ cap - (4 + q.token.len + ob.length + 1)
  rotate_left
  · rw [if_neg h5, M.run_bind, copyTo_eq, if_neg h5]; rfl
  rw [if_pos h5, R.ok_bind, M.bind_ok (by rw [copyTo_eq, if_pos h5])]
  have e4 : blit (blit m out (H ++ peek m q.token ++ ob)) (out + 4 + q.token.len + ob.length) [0xFF] =
      blit m out (H ++ peek m q.token ++ ob ++ [0xFF]) := by
    rw [Nat.add_assoc out, Nat.add_assoc out, ← hl3]; exact blit_blit (by omega) _ _
  have hl4 : (H ++ peek m q.token ++ ob ++ [0xFF]).length = 4 + q.token.len + ob.length + 1 := by rw [List.length_append, hl3]; rfl
  have e5 : blit (blit m out (H ++ peek m q.token ++ ob ++ [0xFF])) (out + 4 + q.token.len + ob.length + 1) q.payload =
      blit m out (H ++ peek m q.token ++ ob ++ [0xFF] ++ q.payload) := by
    rw [Nat.add_assoc out, Nat.add_assoc out, Nat.add_assoc out, ← hl4]; exact blit_blit (by omega) _ _
  rw [e4, e5]
  have hl5 : (H ++ peek m q.token ++ ob ++ [0xFF] ++ q.payload).length = 4 + q.token.len + ob.length + 1 + q.payload.length := by
    rw [List.length_append, hl4]
  exact ⟨by rw [hl5]; rfl, by omega⟩

/-! ### pointers into the input buffer -/

/-- the value pointer of a parsed option, with what it can reach -/
def Ptr (inp : Bytes) (x : Opt × Bytes) : Prop := x.2 <:+ inp ∧ x.1.value = x.2.take x.1.len ∧ x.1.len ≤ x.2.length

theorem optLoop_ptr {inp : Bytes} {cap n i : Nat} {rest : Bytes} {num : Nat} {acc opts : List (Opt × Bytes)} {payload : Bytes}
    (h : optLoop inp cap n i rest num acc = .ok (opts, payload)) (hr : rest <:+ inp) (ha : ∀ x ∈ acc, Ptr inp x) : ∀ x ∈ opts, Ptr inp x := by
  induction n generalizing i rest num acc with
  | zero =>
    unfold optLoop at h
    split at h
    · simp at h; obtain ⟨rfl, rfl⟩ := h; exact ha
    · split at h
      · split at h
        · simp at h
        · simp at h; obtain ⟨rfl, rfl⟩ := h; exact ha
      · split at h
        · simp at h
        · simp only [R.bind_eq_ok] at h
          obtain ⟨⟨d, r1⟩, hd, ⟨l, r2⟩, hl, h⟩ := h
          simp only at h
          repeat' split at h
          all_goals simp at h
  | succ n ih =>
    unfold optLoop at h
    split at h
    · simp at h; obtain ⟨rfl, rfl⟩ := h; exact ha
    · split at h
      · split at h
        · simp at h
        · simp at h; obtain ⟨rfl, rfl⟩ := h; exact ha
      · split at h
        · simp at h
        · rename_i hb r
          simp only [R.bind_eq_ok] at h
          obtain ⟨⟨d, r1⟩, hd, ⟨l, r2⟩, hl, h⟩ := h
          obtain ⟨e1, he1, _⟩ := parseDelta_ok hd
          obtain ⟨e2, he2, _⟩ := parseLen_ok hl
          have hr2 : r2 <:+ inp := by
            refine List.IsSuffix.trans ⟨hb :: e1 ++ e2, ?_⟩ hr
            simp only at he2
            rw [he1, he2]; simp
          simp only at h
          split at h
          · simp at h
          · split at h
            · simp at h
            · rename_i hlen
              refine ih h ((List.drop_suffix _ _).trans hr2) fun x hx => ?_
              rcases List.mem_append.1 hx with hx | hx
              · exact ha x hx
              · rw [List.mem_singleton.1 hx]
                have e : (r2.take l).length = l := by rw [List.length_take]; omega
                refine ⟨hr2, ?_, ?_⟩
                · unfold Opt.len; dsimp only; rw [e]
                · unfold Opt.len; dsimp only; rw [e]; omega

theorem coapParse_ptr {inp : Bytes} {p : Pkt} {t : List (Opt × Bytes)} (h : coapParse inp = .ok (p, t)) :
    p.opts = t.map Prod.fst ∧ p.token = (inp.drop 4).take p.token.length ∧ 4 + p.token.length ≤ inp.length ∧
      ∀ x ∈ t, Ptr (inp.drop (4 + p.token.length)) x := by
  unfold coapParse at h
  split at h
  · rename_i a c m1 m0 rest
    dsimp only at h
    split at h
    · rename_i htk
      obtain ⟨⟨opts, payload⟩, h1, h2⟩ := R.bind_eq_ok.1 h
      simp only [R.pure_eq, R.ok.injEq, Prod.mk.injEq] at h2
      obtain ⟨rfl, rfl⟩ := h2
      have hl : (rest.take (a.toNat % 16)).length = a.toNat % 16 := by rw [List.length_take]; omega
      refine ⟨rfl, ?_, ?_, ?_⟩
      · dsimp only; rw [hl]; rfl
      · dsimp only; rw [hl]; simp only [List.length_cons]; omega
      · dsimp only
        rw [hl]
        have e : (a :: c :: m1 :: m0 :: rest).drop (4 + a.toNat % 16) = rest.drop (a.toNat % 16) := by
          rw [← List.drop_drop]; rfl
        rw [e]
        unfold optionsParse at h1
        split at h1
        · simp at h1; rw [h1.1]; simp
        · exact optLoop_ptr h1 (List.suffix_refl _) (by simp)
    · simp at h
  · simp at h

theorem optPtr_read {mem : Bytes} {i : Span} {k : Nat} {x : Opt × Bytes} (hi : i.ptr + i.len ≤ mem.length)
    (h : Ptr ((peek mem i).drop k) x) : (optPtr i x).read mem = x.1 := by
  obtain ⟨h1, h2, h3⟩ := h
  have hs : x.2 <:+ peek mem i := h1.trans (List.drop_suffix _ _)
  have hl := peek_length hi
  have hle : x.2.length ≤ i.len := by rw [← hl]; exact hs.length_le
  have e : (peek mem i).drop (i.len - x.2.length) = x.2 := by rw [← hl]; exact (List.suffix_iff_eq_drop.1 hs).symm
  have : peek mem ⟨i.ptr + (i.len - x.2.length), x.1.len⟩ = x.1.value := by
    have e' : x.1.value = ((peek mem i).drop (i.len - x.2.length)).take x.1.len := by rw [e]; exact h2
    rw [e']
    unfold Verif.Edhoc.peek
    dsimp only
    rw [List.drop_take, List.drop_drop, List.take_take, Nat.min_eq_left (by omega)]
  unfold OptP.read optPtr Src.read
  dsimp only
  rw [this]

/-- the options read through their pointers are the options of the packet -/
theorem ptrs_read {mem : Bytes} {i : Span} (hi : i.ptr + i.len ≤ mem.length) {p : Pkt} {t : List (Opt × Bytes)}
    (h : coapParse (peek mem i) = .ok (p, t)) : (t.map (optPtr i)).map (OptP.read mem) = p.opts := by
  obtain ⟨h1, _, _, h4⟩ := coapParse_ptr h
  rw [h1, List.map_map]
  exact List.map_congr_left fun x hx => optPtr_read hi (h4 x hx)

theorem ptrs_clear {mem : Bytes} {i : Span} {out cap : Nat} (hi : i.ptr + i.len ≤ mem.length) {p : Pkt} {t : List (Opt × Bytes)}
    (h : coapParse (peek mem i) = .ok (p, t)) (hp : out = i.ptr ∨ out + cap ≤ i.ptr ∨ i.ptr + i.len ≤ out)
    (hcap : 4 + p.token.length ≤ cap) : ∀ o ∈ t.map (optPtr i), o.val.Clear out (4 + p.token.length) := by
  intro o ho
  obtain ⟨x, hx, rfl⟩ := List.mem_map.1 ho
  obtain ⟨h1, _, h3, h4⟩ := coapParse_ptr h
  obtain ⟨s1, _, s3⟩ := h4 x hx
  have hl := peek_length hi
  have := s1.length_le
  rw [List.length_drop, hl] at this
  unfold optPtr Src.Clear
  dsimp only
  omega

/-! ### the packets with pointers read as the packets with values -/

theorem splitUP_read (m : Bytes) (req : Bool) (l : List OptP) (nr eSum uSum eLen : Nat) :
    (splitUP nr uSum l).map (OptP.read m) = (splitGo req nr eSum uSum eLen (l.map (OptP.read m))).u := by
  induction l generalizing nr eSum uSum eLen with
  | nil => rfl
  | cons o os ih =>
    unfold splitUP
    rw [List.map_cons]
    unfold splitGo
    have e : (OptP.read m o).delta = o.delta := rfl
    dsimp only
    rw [e]
    generalize (nr + o.delta) % 65536 = nr'
    by_cases h1 : nr' = optOBSERVE
    · rw [if_pos (.inl h1), if_pos h1, List.map_cons]
      dsimp only
      rw [← ih]
      rfl
    · rw [if_neg h1]
      by_cases h2 : isClassE nr' = true
      · rw [if_neg (by simp [h1, h2]), if_pos h2]
        dsimp only
        exact ih _ _ _ _
      · rw [if_pos (.inr (by simpa using h2)), if_neg h2, List.map_cons]
        dsimp only
        rw [← ih]
        rfl

theorem outerDeltasP_read (m : Bytes) (l : List OptP) (s : Nat) :
    (outerDeltasP s l).map (OptP.read m) = outerDeltas s (l.map (OptP.read m)) := by
  induction l generalizing s with
  | nil => rfl
  | cons o os ih =>
    unfold outerDeltasP
    rw [List.map_cons, List.map_cons]
    unfold outerDeltas
    dsimp only
    rw [ih]
    rfl

theorem observe_read (m : Bytes) (l : List OptP) : isObserve (l.map (OptP.read m)) = l.any (fun o => o.num == optOBSERVE) := by
  unfold isObserve
  rw [List.any_map]
  rfl

theorem pkgP_read (m : Bytes) (p : Pkt) (tok : Span) (u : List OptP) (ct ov : Bytes) (ht : peek m tok = p.token) :
    (oscorePkgGenerateP p tok u ct ov).read m = oscorePkgGenerate p (u.map (OptP.read m)) ct ov := by
  unfold oscorePkgGenerateP oscorePkgGenerate PktP.read
  dsimp only
  rw [observe_read, outerDeltasP_read, List.map_append, List.map_append, List.takeWhile_map, List.dropWhile_map, ht]
  rfl

theorem exPassP_read (m : Bytes) (l : List OptP) (x : OptP) :
    exPass (x.read m) (l.map (OptP.read m)) = ((exPassP x l).1.read m, (exPassP x l).2.map (OptP.read m)) := by
  induction l generalizing x with
  | nil => rfl
  | cons y ys ih =>
    rw [List.map_cons]
    unfold exPass exPassP
    have e1 : (x.read m).num = x.num := rfl
    have e2 : (y.read m).num = y.num := rfl
    rw [e1, e2]
    split
    · dsimp only; rw [ih]; rfl
    · dsimp only; rw [ih]; rfl

theorem exPassP_length (l : List OptP) (x : OptP) : (exPassP x l).2.length = l.length := by
  induction l generalizing x with
  | nil => rfl
  | cons y ys ih =>
    unfold exPassP
    split
    · dsimp only; rw [List.length_cons, ih, List.length_cons]
    · dsimp only; rw [List.length_cons, ih, List.length_cons]

theorem exSortP_read (m : Bytes) (n : Nat) (l : List OptP) : exSort n (l.map (OptP.read m)) = (exSortP n l).map (OptP.read m) := by
  induction n generalizing l with
  | zero => rfl
  | succ n ih =>
    cases l with
    | nil => rfl
    | cons x xs =>
      rw [List.map_cons]
      unfold exSort exSortP
      rw [exPassP_read]
      dsimp only
      rw [ih, List.map_cons]

theorem redeltaP_read (m : Bytes) (l : List OptP) (prev : Nat) :
    redelta prev (l.map (OptP.read m)) = (redeltaP prev l).map (OptP.read m) := by
  induction l generalizing prev with
  | nil => rfl
  | cons o os ih =>
    rw [List.map_cons]
    unfold redelta redeltaP
    rw [List.map_cons, ← ih]
    rfl

theorem reorderP_read (m : Bytes) (u e : List OptP) :
    optionsReorder (u.map (OptP.read m)) (e.map (OptP.read m)) =
      (optionsReorderP u e >>= fun l => pure (l.map (OptP.read m))) := by
  unfold optionsReorder optionsReorderP
  rw [List.length_map, List.length_map]
  cases checkBufferSize maxOptionCount ((u.length + e.length + 255) % 256) with
  | err e => rfl
  | ub => rfl
  | ok _ =>
    rw [R.ok_bind, R.ok_bind]
    dsimp only
    have : (u.map (OptP.read m)).filter (fun o => o.num != optOSCORE && o.num != optOBSERVE) ++ e.map (OptP.read m) =
        (u.filter (fun o => o.num != optOSCORE && o.num != optOBSERVE) ++ e).map (OptP.read m) := by
      rw [List.filter_map, List.map_append]; rfl
    rw [this, List.length_map, exSortP_read, redeltaP_read]
    rfl

/-! ### the pointers stay the ones of the input -/

section pointers
variable {P : Src → Prop}

theorem splitUP_val (l : List OptP) (nr uSum : Nat) (h : ∀ o ∈ l, P o.val) : ∀ o ∈ splitUP nr uSum l, P o.val := by
  induction l generalizing nr uSum with
  | nil => intro o ho; cases ho
  | cons x xs ih =>
    have hx := h x (List.mem_cons_self ..)
    have hxs := fun o ho => h o (List.mem_cons_of_mem _ ho)
    unfold splitUP
    dsimp only
    split
    · intro o ho
      rcases List.mem_cons.1 ho with rfl | ho
      · exact hx
      · exact ih _ _ hxs o ho
    · exact ih _ _ hxs

theorem outerDeltasP_val (l : List OptP) (s : Nat) (h : ∀ o ∈ l, P o.val) : ∀ o ∈ outerDeltasP s l, P o.val := by
  induction l generalizing s with
  | nil => intro o ho; cases ho
  | cons x xs ih =>
    intro o ho
    unfold outerDeltasP at ho
    rcases List.mem_cons.1 ho with rfl | ho
    · exact h x (List.mem_cons_self ..)
    · exact ih _ (fun o ho => h o (List.mem_cons_of_mem _ ho)) o ho

theorem exPassP_val (l : List OptP) (x : OptP) (hx : P x.val) (h : ∀ o ∈ l, P o.val) :
    P (exPassP x l).1.val ∧ ∀ o ∈ (exPassP x l).2, P o.val := by
  induction l generalizing x with
  | nil => exact ⟨hx, fun o ho => by cases ho⟩
  | cons y ys ih =>
    have hy := h y (List.mem_cons_self ..)
    have hys := fun o ho => h o (List.mem_cons_of_mem _ ho)
    unfold exPassP
    split
    · dsimp only
      refine ⟨(ih y hy hys).1, fun o ho => ?_⟩
      rcases List.mem_cons.1 ho with rfl | ho
      · exact hx
      · exact (ih y hy hys).2 o ho
    · dsimp only
      refine ⟨(ih x hx hys).1, fun o ho => ?_⟩
      rcases List.mem_cons.1 ho with rfl | ho
      · exact hy
      · exact (ih x hx hys).2 o ho

theorem exSortP_val (n : Nat) (l : List OptP) (h : ∀ o ∈ l, P o.val) : ∀ o ∈ exSortP n l, P o.val := by
  induction n generalizing l with
  | zero => exact h
  | succ n ih =>
    cases l with
    | nil => intro o ho; cases ho
    | cons x xs =>
      have hp := exPassP_val xs x (h x (List.mem_cons_self ..)) (fun o ho => h o (List.mem_cons_of_mem _ ho))
      unfold exSortP
      dsimp only
      intro o ho
      rcases List.mem_cons.1 ho with rfl | ho
      · exact hp.1
      · exact ih _ hp.2 o ho

theorem redeltaP_val (l : List OptP) (s : Nat) (h : ∀ o ∈ l, P o.val) : ∀ o ∈ redeltaP s l, P o.val := by
  induction l generalizing s with
  | nil => intro o ho; cases ho
  | cons x xs ih =>
    intro o ho
    unfold redeltaP at ho
    rcases List.mem_cons.1 ho with rfl | ho
    · exact h x (List.mem_cons_self ..)
    · exact ih _ (fun o ho => h o (List.mem_cons_of_mem _ ho)) o ho

theorem pkgP_val {p : Pkt} {tok : Span} {u : List OptP} {ct ov : Bytes} (h : ∀ o ∈ u, P o.val) (hl : ∀ b, P (.loc b)) :
    ∀ o ∈ (oscorePkgGenerateP p tok u ct ov).opts, P o.val := by
  refine outerDeltasP_val _ _ fun o ho => ?_
  rcases List.mem_append.1 ho with ho | ho
  · rcases List.mem_append.1 ho with ho | ho
    · exact h o (List.takeWhile_subset _ ho)
    · rw [List.mem_singleton.1 ho]; exact hl _
  · exact h o (List.dropWhile_subset _ ho)

theorem reorderP_val {u e l : List OptP} (hr : optionsReorderP u e = .ok l) (hu : ∀ o ∈ u, P o.val) (he : ∀ o ∈ e, P o.val) :
    ∀ o ∈ l, P o.val := by
  obtain ⟨_, _, h2⟩ := R.bind_eq_ok.1 hr
  simp only [R.pure_eq, R.ok.injEq] at h2
  subst h2
  refine redeltaP_val _ _ (exSortP_val _ _ fun o ho => ?_)
  rcases List.mem_append.1 ho with ho | ho
  · exact hu o (List.mem_filter.1 ho).1
  · exact he o ho

end pointers

/-- the CoAP packet with pointers reads as the one with values -/
theorem oCoapP_read {m pt : Bytes} {p out : Pkt} {tok : Span} {u : List OptP} (hu : u.map (OptP.read m) = p.opts)
    (ht : peek m tok = p.token) (h : oCoapPkgGenerate pt p = .ok out) :
    ∃ q, oCoapPkgGenerateP pt p tok u = .ok q ∧ q.read m = out ∧ q.token = tok ∧
      ∀ P : Src → Prop, (∀ b, P (.loc b)) → (∀ o ∈ u, P o.val) → ∀ o ∈ q.opts, P o.val := by
  unfold oCoapPkgGenerate at h
  obtain ⟨⟨code, e, payload⟩, h1, h2⟩ := R.bind_eq_ok.1 h
  obtain ⟨opts, h3, h4⟩ := R.bind_eq_ok.1 h2
  simp only [R.pure_eq, R.ok.injEq] at h4
  subst h4
  have he : (e.map fun o => ({ delta := o.delta, num := o.num, val := .loc o.value } : OptP)).map (OptP.read m) = e := by
    rw [List.map_map]
    exact (List.map_congr_left fun _ _ => rfl).trans (List.map_id e)
  rw [← hu] at h3
  conv at h3 => lhs; arg 2; rw [← he]
  rw [reorderP_read] at h3
  obtain ⟨l, h5, h6⟩ := R.bind_eq_ok.1 h3
  simp only [R.pure_eq, R.ok.injEq] at h6
  subst h6
  unfold oCoapPkgGenerateP
  rw [h1, R.ok_bind]
  dsimp only
  rw [h5, R.ok_bind]
  refine ⟨_, rfl, ?_, rfl, fun P hl hu' => reorderP_val h5 hu' fun o ho => ?_⟩
  · unfold PktP.read
    dsimp only
    rw [ht]
  · obtain ⟨x, _, rfl⟩ := List.mem_map.1 ho
    exact hl _

/-! ### the calls -/

theorem onW_run {σ α : Type} (m : M σ α) (s : σ) (b : Bytes) : onW m (s, b) = ((m s).1, ((m s).2, b)) := rfl
theorem onB_run {σ α : Type} (m : M Bytes α) (s : σ) (b : Bytes) : (onB m : M (σ × Bytes) α) (s, b) = ((m b).1, (s, (m b).2)) := rfl

theorem onW_bind {σ α β : Type} (m : M σ α) (f : α → M (σ × Bytes) β) (s : σ) (b : Bytes) :
    (onW m >>= f) (s, b) = match m s with
      | (.ok a, s') => f a (s', b)
      | (.err e, s') => (.err e, (s', b))
      | (.ub, s') => (.ub, (s', b)) := by
  rw [M.run_bind, onW_run]
  rcases m s with ⟨_ | _ | _, s'⟩ <;> rfl

/-- the placements of the buffers that work: the output buffer is the input buffer, or they do not overlap -/
def Placed (i : Span) (out cap : Nat) : Prop := out = i.ptr ∨ out + cap ≤ i.ptr ∨ i.ptr + i.len ≤ out

theorem serialize_call {cfg : Cfg} {i : Span} {out cap : Nat} {mem : Bytes} {p : Pkt} {t : List (Opt × Bytes)} {q : PktP}
    (hi : i.ptr + i.len ≤ mem.length) (ho : out + cap ≤ mem.length) (h : Placed i out cap)
    (hp : coapParse (peek mem i) = .ok (p, t)) (hq : q.token = ⟨i.ptr + 4, p.token.length⟩)
    (hv : ∀ P : Src → Prop, (∀ b, P (.loc b)) → (∀ o ∈ t.map (optPtr i), P o.val) → ∀ o ∈ q.opts, P o.val) :
    Writes out cap mem (coapSerialize cfg (q.read mem) cap) (serializeMem cfg q out cap mem) := by
  by_cases hc : cap < 4
  · unfold coapSerialize serializeMem
    rw [if_pos hc, if_pos hc]; rfl
  obtain ⟨_, _, h3, _⟩ := coapParse_ptr hp
  rw [peek_length hi] at h3
  unfold Placed at h
  refine serializeMem_eq ho (by rw [hq]; dsimp only; omega) (by rw [hq]; dsimp only; omega) fun hk => ?_
  rw [hq] at hk ⊢
  exact hv _ (fun _ => trivial) (ptrs_clear hi hp h hk)

theorem token_read {i : Span} {mem : Bytes} {p : Pkt} {t : List (Opt × Bytes)} (hi : i.ptr + i.len ≤ mem.length)
    (hp : coapParse (peek mem i) = .ok (p, t)) : peek mem ⟨i.ptr + 4, p.token.length⟩ = p.token := by
  obtain ⟨_, h2, h3, _⟩ := coapParse_ptr hp
  rw [peek_length hi] at h3
  conv => rhs; rw [h2]
  unfold peek
  dsimp only
  rw [List.drop_take, List.drop_drop, List.take_take, Nat.min_eq_left (by omega)]

theorem protect_core {cfg : Cfg} {C : Crypto} {nvmW : Option Err} {w : World} {mem : Bytes} {i : Span} {out cap : Nat}
    (hi : i.ptr + i.len ≤ mem.length) (ho : out + cap ≤ mem.length) (h : Placed i out cap) :
    (coap2oscoreMem cfg C nvmW i out cap (w, mem)).2.1 = (coap2oscore cfg C nvmW (peek mem i) cap w).2 ∧
      Writes out cap mem (coap2oscore cfg C nvmW (peek mem i) cap w).1
        ((coap2oscoreMem cfg C nvmW i out cap (w, mem)).1, (coap2oscoreMem cfg C nvmW i out cap (w, mem)).2.2) := by
  unfold coap2oscoreMem coap2oscore
  rw [M.bind_get, M.bind_get, onW_bind]
  dsimp only
  cases hf : checkFreshness w.ctx with
  | err e => exact ⟨rfl, rfl⟩
  | ub => exact ⟨rfl, rfl⟩
  | ok _ =>
  rw [M.bind_lift_ok, M.run_lift]
  dsimp only
  rw [onW_bind]
  unfold coapDeserialize
  cases hp : coapParse (peek mem i) with
  | err e => exact ⟨rfl, rfl⟩
  | ub => exact ⟨rfl, rfl⟩
  | ok pt =>
  obtain ⟨p, t⟩ := pt
  rw [R.ok_bind]
  dsimp only
  rw [R.pure_eq, M.bind_lift_ok, M.run_lift]
  dsimp only
  by_cases hk : p.type = 2 ∧ p.code = 0
  · rw [if_pos hk, if_pos hk, peek_length hi]
    by_cases hcap : cap < i.len
    · rw [if_pos hcap, if_pos hcap]; exact ⟨rfl, rfl⟩
    · rw [if_neg hcap, if_neg hcap]
      have e : copyTo out i.len (peek mem i) mem = (.ok (), blit mem out (peek mem i)) := by
        rw [copyTo_eq, if_pos (by rw [peek_length hi]; exact Nat.le_refl _)]
      have e' : (onB (copyTo out i.len (peek mem i)) : M (World × Bytes) Unit) (w, mem) = (.ok (), (w, blit mem out (peek mem i))) := by
        rw [onB_run, e]
      rw [M.bind_ok e']
      refine ⟨rfl, ?_, ?_⟩
      · rw [peek_length hi]; rfl
      · rw [peek_length hi]; omega
  rw [if_neg hk, if_neg hk, onW_bind]
  unfold protectPkt protectMid
  cases hs : optionSplit p with
  | err e => exact ⟨rfl, rfl⟩
  | ub => exact ⟨rfl, rfl⟩
  | ok s =>
  rw [M.bind_lift_ok, M.bind_lift_ok]
  cases checkBufferSize cfg.maxPlaintext (plaintextLen p s.eLen) with
  | err e => exact ⟨rfl, rfl⟩
  | ub => exact ⟨rfl, rfl⟩
  | ok _ =>
  rw [M.bind_lift_ok, M.bind_lift_ok]
  cases plaintextSetup cfg p s.e (plaintextLen p s.eLen) with
  | err e => exact ⟨rfl, rfl⟩
  | ub => exact ⟨rfl, rfl⟩
  | ok pt =>
  rw [M.bind_lift_ok, M.bind_lift_ok, M.run_bind, M.run_bind]
  rcases cacheEcho s.e w with ⟨x | x | x, w'⟩
  · dsimp only
    rw [M.run_bind]
    rcases encryptWrapper cfg C nvmW pt p w' with ⟨y | y | y, w''⟩
    · obtain ⟨ct, opt⟩ := y
      dsimp only
      rw [onB_run, M.run_lift]
      refine ⟨rfl, ?_⟩
      have hu : s.u = (splitUP 0 0 (t.map (optPtr i))).map (OptP.read mem) := by
        unfold optionSplit at hs
        split at hs
        · cases hs
        · injection hs with hs
          rw [splitUP_read mem (isRequest p) _ 0 0 0 0, ptrs_read hi hp, hs]
      rw [hu, ← pkgP_read mem p ⟨i.ptr + 4, p.token.length⟩ _ ct opt (token_read hi hp)]
      exact serialize_call hi ho h hp rfl fun P hl hv => pkgP_val (splitUP_val _ _ _ hv) hl
    · exact ⟨rfl, rfl⟩
    · exact ⟨rfl, rfl⟩
  · exact ⟨rfl, rfl⟩
  · exact ⟨rfl, rfl⟩

theorem decryptWrapper_pkg {cfg : Cfg} {C : Crypto} {opt : Option OscOpt} {p out : Pkt} {pt : Bytes} {c c' : Ctx}
    (h : decryptWrapper cfg C opt p c = (.ok (out, pt), c')) : oCoapPkgGenerate pt p = .ok out := by
  unfold decryptWrapper at h
  obtain ⟨c0, s0, e0, h⟩ := M.bind_eq_ok.1 h
  obtain ⟨⟨rp, rk⟩, s1, e1, h⟩ := M.bind_eq_ok.1 h
  obtain ⟨nonce, s2, e2, h⟩ := M.bind_eq_ok.1 h
  obtain ⟨aad, s3, e3, h⟩ := M.bind_eq_ok.1 h
  obtain ⟨pt', s4, e4, h⟩ := M.bind_eq_ok.1 h
  split at h
  · obtain ⟨_, s5, e5, h⟩ := M.bind_eq_ok.1 h
    obtain ⟨out', s6, e6, h⟩ := M.bind_eq_ok.1 h
    obtain ⟨uri, s7, e7, h⟩ := M.bind_eq_ok.1 h
    obtain ⟨tb, s8, e8, h⟩ := M.bind_eq_ok.1 h
    obtain ⟨_, s9, e9, h⟩ := M.bind_eq_ok.1 h
    rw [M.run_pure] at h
    simp only [Prod.mk.injEq, R.ok.injEq] at h
    obtain ⟨⟨rfl, rfl⟩, _⟩ := h
    rw [M.run_lift] at e6
    simp only [Prod.mk.injEq] at e6
    exact e6.1
  · have h := h
    obtain ⟨out', s6, e6, h⟩ := M.bind_eq_ok.1 h
    obtain ⟨uri, s7, e7, h⟩ := M.bind_eq_ok.1 h
    obtain ⟨tb, s8, e8, h⟩ := M.bind_eq_ok.1 h
    obtain ⟨_, s9, e9, h⟩ := M.bind_eq_ok.1 h
    rw [M.run_pure] at h
    simp only [Prod.mk.injEq, R.ok.injEq] at h
    obtain ⟨⟨rfl, rfl⟩, _⟩ := h
    rw [M.run_lift] at e6
    simp only [Prod.mk.injEq] at e6
    exact e6.1

/-- the step between the packet and its serialisation, with the packet made of the plaintext -/
def MidAgrees (p : Pkt) (v : R Pkt × Ctx) (r : R Bytes × Ctx) : Prop :=
  v.2 = r.2 ∧ match r.1 with
    | .ok pt => ∃ out, oCoapPkgGenerate pt p = .ok out ∧ v.1 = .ok out
    | .err e => v.1 = .err e
    | .ub => v.1 = .ub

theorem mid_decrypt {cfg : Cfg} {C : Crypto} {opt : Option OscOpt} {p : Pkt} {c : Ctx} {g : Pkt → Bytes → M Ctx Pkt} {k : Pkt → Bytes → M Ctx Bytes}
    (h : ∀ out pt c', oCoapPkgGenerate pt p = .ok out → MidAgrees p (g out pt c') (k out pt c')) :
    MidAgrees p ((decryptWrapper cfg C opt p >>= fun x => g x.1 x.2) c) ((decryptWrapper cfg C opt p >>= fun x => k x.1 x.2) c) := by
  rw [M.run_bind, M.run_bind]
  rcases hd : decryptWrapper cfg C opt p c with ⟨x | x | x, c'⟩
  · obtain ⟨out, pt⟩ := x
    exact h out pt c' (decryptWrapper_pkg hd)
  · exact ⟨rfl, rfl⟩
  · exact ⟨rfl, rfl⟩

theorem mid_unit {p out : Pkt} {pt : Bytes} {c : Ctx} (m : M Ctx Unit) (h : oCoapPkgGenerate pt p = .ok out) :
    MidAgrees p ((m >>= fun _ => (pure out : M Ctx Pkt)) c) ((m >>= fun _ => (pure pt : M Ctx Bytes)) c) := by
  rw [M.run_bind, M.run_bind]
  rcases m c with ⟨x | x | x, c'⟩
  · exact ⟨rfl, out, h, rfl⟩
  · exact ⟨rfl, rfl⟩
  · exact ⟨rfl, rfl⟩

theorem mid_lift {α : Type} {p : Pkt} {c : Ctx} (x : R α) {g : α → M Ctx Pkt} {k : α → M Ctx Bytes} (h : ∀ a, MidAgrees p (g a c) (k a c)) :
    MidAgrees p ((M.lift x >>= g) c) ((M.lift x >>= k) c) := by
  cases x with
  | ok a => exact h a
  | err e => exact ⟨rfl, rfl⟩
  | ub => exact ⟨rfl, rfl⟩

theorem unprotectMid_agrees (cfg : Cfg) (C : Crypto) (o : OscOpt) (p : Pkt) (c : Ctx) :
    MidAgrees p ((if isRequest p then unprotectRequest cfg C o p else unprotectResponse cfg C o p) c) (unprotectMid cfg C o p c) := by
  unfold unprotectMid
  rw [M.bind_get]
  by_cases hr : isRequest p = true
  · rw [if_pos hr, if_pos hr]
    unfold unprotectRequest
    rw [M.bind_get]
    refine mid_lift _ fun m => ?_
    by_cases hm : m = false
    · rw [if_pos hm, if_pos hm]; exact ⟨rfl, rfl⟩
    · rw [if_neg hm, if_neg hm]
      refine mid_lift _ fun _ => ?_
      exact mid_decrypt (g := fun out pt => afterRequest o pt >>= fun _ => pure out) (k := fun _ pt => afterRequest o pt >>= fun _ => pure pt)
        fun out pt c' h => mid_unit _ h
  · rw [if_neg hr, if_neg hr]
    unfold unprotectResponse
    rw [M.bind_get]
    by_cases hob : isObserve p.opts = true
    · rw [if_pos hob, if_pos hob]
      by_cases hp : o.piv.len ≠ 0
      · rw [if_pos hp, if_pos hp]
        refine mid_lift _ fun piv => mid_lift _ fun _ => ?_
        exact mid_decrypt (g := fun out _ => notificationUpdate piv >>= fun _ => pure out) (k := fun _ pt => notificationUpdate piv >>= fun _ => pure pt)
          fun out pt c' h => mid_unit _ h
      · rw [if_neg hp, if_neg hp]; exact ⟨rfl, rfl⟩
    · rw [if_neg hob, if_neg hob]
      exact mid_decrypt (g := fun out _ => pure out) (k := fun _ pt => pure pt) fun out pt c' h => ⟨rfl, out, h, rfl⟩

/-- the call on memory does what the call on values does -/
def Agrees {σ : Type} (out cap : Nat) (mem : Bytes) (r : R Nat × σ × Bytes) (v : R Bytes × σ) : Prop :=
  r.2.1 = v.2 ∧ Writes out cap mem v.1 (r.1, r.2.2)

theorem agrees_lift {σ α : Type} {out cap : Nat} {mem : Bytes} {s : σ} (x : R α) {f : α → M (σ × Bytes) Nat} {g : α → M σ Bytes}
    (h : ∀ a, x = .ok a → Agrees out cap mem (f a (s, mem)) (g a s)) :
    Agrees out cap mem ((onW (M.lift x) >>= f) (s, mem)) ((M.lift x >>= g) s) := by
  cases x with
  | ok a => exact h a rfl
  | err e => exact ⟨rfl, rfl⟩
  | ub => exact ⟨rfl, rfl⟩

theorem unprotect_core {cfg : Cfg} {C : Crypto} {c : Ctx} {mem : Bytes} {i : Span} {out cap : Nat}
    (hi : i.ptr + i.len ≤ mem.length) (ho : out + cap ≤ mem.length) (h : Placed i out cap) :
    Agrees out cap mem (oscore2coapMem cfg C i out cap (c, mem)) (oscore2coap cfg C (peek mem i) cap c) := by
  unfold oscore2coapMem oscore2coap
  rw [M.bind_get, M.bind_get]
  refine agrees_lift _ fun _ _ => agrees_lift _ fun x hp => agrees_lift _ fun o _ => agrees_lift _ fun _ _ => ?_
  obtain ⟨p, t⟩ := x
  dsimp only
  have ej : (if isRequest p then unprotectRequest cfg C o p >>= fun out => M.lift (coapSerialize cfg out cap)
      else unprotectResponse cfg C o p >>= fun out => M.lift (coapSerialize cfg out cap)) =
      ((if isRequest p then unprotectRequest cfg C o p else unprotectResponse cfg C o p) >>= fun out => M.lift (coapSerialize cfg out cap)) := by
    split <;> rfl
  rw [onW_bind, ej, M.run_bind]
  obtain ⟨a1, a2⟩ := unprotectMid_agrees cfg C o p c
  revert a1 a2
  generalize (if isRequest p then unprotectRequest cfg C o p else unprotectResponse cfg C o p) c = v
  generalize unprotectMid cfg C o p c = r
  obtain ⟨v1, v2⟩ := v
  obtain ⟨r1, r2⟩ := r
  dsimp only
  intro a1 a2
  subst a1
  cases r1 with
  | err e => dsimp only at a2; subst a2; exact ⟨rfl, rfl⟩
  | ub => dsimp only at a2; subst a2; exact ⟨rfl, rfl⟩
  | ok pt =>
    dsimp only at a2
    obtain ⟨pk, hk, rfl⟩ := a2
    obtain ⟨q, q1, q2, q3, q4⟩ := oCoapP_read (ptrs_read hi hp) (token_read hi hp) hk
    dsimp only
    rw [onW_bind, q1, M.run_lift]
    dsimp only
    rw [onB_run, M.run_lift, ← q2]
    exact ⟨rfl, serialize_call hi ho h hp q3 q4⟩

/-! ### what the caller sees -/

/-- `r` and the memory `m'` are the result of the call that gives `v`: the same error, or the message at `out` and its length -/
def Delivered (out : Nat) (v : R Bytes) (r : R Nat) (m' : Bytes) : Prop :=
  match v with
  | .ok b => r = .ok b.length ∧ peek m' ⟨out, b.length⟩ = b
  | .err e => r = .err e
  | .ub => r = .ub

theorem delivered_of_writes {out cap : Nat} {m : Bytes} {v : R Bytes} {r : R Nat × Bytes} (ho : out + cap ≤ m.length)
    (h : Writes out cap m v r) : Delivered out v r.1 r.2 := by
  cases v with
  | err e => exact h
  | ub => exact h
  | ok b =>
    obtain ⟨h1, h2⟩ := h
    subst h1
    exact ⟨rfl, peek_blit_self b (by omega)⟩

/-- **C95** (`coap2oscore`): with the output buffer at the input buffer, or without overlap, the call does what it does with
the message as a value: the same context, storage and log, the same error, or the same message. -/
theorem C95_protect (cfg : Cfg) (C : Crypto) (nvmW : Option Err) (w : World) (mem : Bytes) (i : Span) (out cap : Nat)
    (hi : i.ptr + i.len ≤ mem.length) (ho : out + cap ≤ mem.length)
    (h : out = i.ptr ∨ out + cap ≤ i.ptr ∨ i.ptr + i.len ≤ out) :
    (coap2oscoreMem cfg C nvmW i out cap (w, mem)).2.1 = (coap2oscore cfg C nvmW (peek mem i) cap w).2 ∧
      Delivered out (coap2oscore cfg C nvmW (peek mem i) cap w).1 (coap2oscoreMem cfg C nvmW i out cap (w, mem)).1
        (coap2oscoreMem cfg C nvmW i out cap (w, mem)).2.2 :=
  ⟨(protect_core hi ho h).1, delivered_of_writes ho (protect_core hi ho h).2⟩

/-- **C95** (`oscore2coap`) -/
theorem C95_unprotect (cfg : Cfg) (C : Crypto) (c : Ctx) (mem : Bytes) (i : Span) (out cap : Nat)
    (hi : i.ptr + i.len ≤ mem.length) (ho : out + cap ≤ mem.length)
    (h : out = i.ptr ∨ out + cap ≤ i.ptr ∨ i.ptr + i.len ≤ out) :
    (oscore2coapMem cfg C i out cap (c, mem)).2.1 = (oscore2coap cfg C (peek mem i) cap c).2 ∧
      Delivered out (oscore2coap cfg C (peek mem i) cap c).1 (oscore2coapMem cfg C i out cap (c, mem)).1
        (oscore2coapMem cfg C i out cap (c, mem)).2.2 :=
  ⟨(unprotect_core hi ho h).1, delivered_of_writes ho (unprotect_core hi ho h).2⟩

/-- a step of a call leaves the caller's memory outside the output buffer alone -/
def PIn {σ : Type} (lo hi : Nat) (s s' : σ × Bytes) : Prop := Inside lo hi s.2 s'.2

theorem pin_refl {σ : Type} {lo hi : Nat} (s : σ × Bytes) : PIn lo hi s s := inside_refl s.2
theorem pin_trans {σ : Type} {lo hi : Nat} (a b c : σ × Bytes) (h1 : PIn lo hi a b) (h2 : PIn lo hi b c) : PIn lo hi a c :=
  inside_trans _ _ _ h1 h2
theorem onW_pin {σ α : Type} {lo hi : Nat} (m : M σ α) : M.Rel (PIn lo hi) (onW m) := fun s => inside_refl s.2
theorem onB_pin {σ α : Type} {lo hi : Nat} {m : M Bytes α} (h : M.Rel (Inside lo hi) m) : M.Rel (PIn lo hi) (onB m : M (σ × Bytes) α) :=
  fun s => h s.2

theorem protect_pin (cfg : Cfg) (C : Crypto) (nvmW : Option Err) (i : Span) (out cap : Nat) :
    M.Rel (PIn out (out + cap)) (coap2oscoreMem cfg C nvmW i out cap) := by
  unfold coap2oscoreMem
  have ht := @pin_trans World out (out + cap)
  refine M.Rel.bind ht (M.Rel.get pin_refl) fun s => M.Rel.bind ht (onW_pin _) fun _ => M.Rel.bind ht (onW_pin _) fun x => ?_
  obtain ⟨p, t⟩ := x
  dsimp only
  split
  · split
    · exact M.Rel.lift pin_refl _
    · rename_i hc
      refine M.Rel.bind ht (onB_pin fun m => ?_) fun _ => M.Rel.pure pin_refl _
      rw [copyTo_eq]
      have hl : (peek s.2 i).length ≤ i.len := by unfold peek; rw [List.length_take]; omega
      rw [if_pos hl]
      exact fun h => same_blit (Nat.le_refl _) (by omega) h
  · exact M.Rel.bind ht (onW_pin _) fun x => onB_pin (serializeMem_inside _ _ _ _)

theorem unprotect_pin (cfg : Cfg) (C : Crypto) (i : Span) (out cap : Nat) :
    M.Rel (PIn out (out + cap)) (oscore2coapMem cfg C i out cap) := by
  unfold oscore2coapMem
  have ht := @pin_trans Ctx out (out + cap)
  refine M.Rel.bind ht (M.Rel.get pin_refl) fun s => M.Rel.bind ht (onW_pin _) fun _ => M.Rel.bind ht (onW_pin _) fun x => ?_
  obtain ⟨p, t⟩ := x
  dsimp only
  exact M.Rel.bind ht (onW_pin _) fun _ => M.Rel.bind ht (onW_pin _) fun _ => M.Rel.bind ht (onW_pin _) fun _ =>
    M.Rel.bind ht (onW_pin _) fun _ => onB_pin (serializeMem_inside _ _ _ _)

/-- **C95** (`coap2oscore`): wherever the buffers are and whatever they hold, also when the call fails, what the caller has
outside the output buffer is the same.  (The places where the code writes beyond `cap` are a result `ub` of the model, C07;
up to there it holds for them too.) -/
theorem C95_protect_writes (cfg : Cfg) (C : Crypto) (nvmW : Option Err) (w : World) (mem : Bytes) (i : Span) (out cap : Nat)
    (ho : out + cap ≤ mem.length) : SameOutside out (out + cap) mem (coap2oscoreMem cfg C nvmW i out cap (w, mem)).2.2 :=
  protect_pin cfg C nvmW i out cap (w, mem) ho

/-- **C95** (`oscore2coap`) -/
theorem C95_unprotect_writes (cfg : Cfg) (C : Crypto) (c : Ctx) (mem : Bytes) (i : Span) (out cap : Nat)
    (ho : out + cap ≤ mem.length) : SameOutside out (out + cap) mem (oscore2coapMem cfg C i out cap (c, mem)).2.2 :=
  unprotect_pin cfg C i out cap (c, mem) ho

/-! ### histories -/

/-- the buffers of the call are in the memory of `n` bytes, and the same or apart -/
structure MemCall.Fits (n : Nat) (k : MemCall) : Prop where
  fill : ∀ m : Bytes, m.length = n → (k.fill m).length = n
  input : k.i.ptr + k.i.len ≤ n
  output : k.out + k.cap ≤ n
  placed : k.out = k.i.ptr ∨ k.out + k.cap ≤ k.i.ptr ∨ k.i.ptr + k.i.len ≤ k.out

/-- the call with the message that is in the input buffer when it is made -/
def MemCall.seen (mem : Bytes) (k : MemCall) : Op :=
  if k.protect then .protect (peek (k.fill mem) k.i) k.cap k.nvmW else .unprotect (peek (k.fill mem) k.i) k.cap

/-- the history with the messages that are in the input buffers when the calls are made -/
def seenAll (cfg : Cfg) (C : Crypto) : World × Bytes → List MemCall → List Op
  | _, [] => []
  | s, k :: ks => k.seen s.2 :: seenAll cfg C (memStep cfg C s k).2 ks

theorem memStep_eq (cfg : Cfg) (C : Crypto) (s : World × Bytes) (k : MemCall) (h : k.Fits s.2.length) :
    (memStep cfg C s k).2.1 = (step cfg C s.1 (k.seen s.2)).2 ∧
      Delivered k.out (step cfg C s.1 (k.seen s.2)).1 (memStep cfg C s k).1 (memStep cfg C s k).2.2 ∧
      SameOutside k.out (k.out + k.cap) (k.fill s.2) (memStep cfg C s k).2.2 := by
  have hl := h.fill s.2 rfl
  have hi := h.input
  have ho := h.output
  rw [← hl] at hi ho
  unfold memStep MemCall.seen
  by_cases hp : k.protect = true
  · rw [if_pos hp, if_pos hp]
    exact ⟨(C95_protect cfg C k.nvmW s.1 _ k.i k.out k.cap hi ho h.placed).1,
      (C95_protect cfg C k.nvmW s.1 _ k.i k.out k.cap hi ho h.placed).2, C95_protect_writes cfg C k.nvmW s.1 _ k.i k.out k.cap ho⟩
  · rw [if_neg hp, if_neg hp]
    obtain ⟨a, b⟩ := C95_unprotect cfg C s.1.ctx _ k.i k.out k.cap hi ho h.placed
    refine ⟨?_, b, C95_unprotect_writes cfg C s.1.ctx _ k.i k.out k.cap ho⟩
    unfold step
    dsimp only
    rw [a]

/-- **C95**, histories: a device that makes any calls on the same memory, in any order, each with buffers that are the same or
apart, goes through the contexts, the storage and the log of the history of the messages as values. -/
theorem C95_history (cfg : Cfg) (C : Crypto) (s : World × Bytes) (h : List MemCall) (hf : ∀ k ∈ h, k.Fits s.2.length) :
    (memRun cfg C s h).1 = run cfg C s.1 (seenAll cfg C s h) ∧ (memRun cfg C s h).2.length = s.2.length := by
  induction h generalizing s with
  | nil => exact ⟨rfl, rfl⟩
  | cons k ks ih =>
    have hk := hf k (List.mem_cons_self ..)
    obtain ⟨h1, _, h3, _⟩ := memStep_eq cfg C s k hk
    have hl : (memStep cfg C s k).2.2.length = s.2.length := h3.trans (hk.fill _ rfl)
    obtain ⟨i1, i2⟩ := ih (memStep cfg C s k).2 (fun k' hk' => by rw [hl]; exact hf k' (List.mem_cons_of_mem _ hk'))
    have e : memRun cfg C s (k :: ks) = memRun cfg C (memStep cfg C s k).2 ks := rfl
    have e' : run cfg C s.1 (seenAll cfg C s (k :: ks)) = run cfg C (step cfg C s.1 (k.seen s.2)).2 (seenAll cfg C (memStep cfg C s k).2 ks) := rfl
    rw [e, e', ← h1]
    exact ⟨i1, i2.trans hl⟩

/-- **C95**, histories: and each call returns what the call on the value returns there, and writes to its output buffer only. -/
theorem C95_history_results (cfg : Cfg) (C : Crypto) (s : World × Bytes) (h : List MemCall) (k : MemCall)
    (hf : ∀ k' ∈ h ++ [k], k'.Fits s.2.length) :
    Delivered k.out (step cfg C (run cfg C s.1 (seenAll cfg C s h)) (k.seen (memRun cfg C s h).2)).1
        (memStep cfg C (memRun cfg C s h) k).1 (memStep cfg C (memRun cfg C s h) k).2.2 ∧
      SameOutside k.out (k.out + k.cap) (k.fill (memRun cfg C s h).2) (memStep cfg C (memRun cfg C s h) k).2.2 := by
  obtain ⟨h1, h2⟩ := C95_history cfg C s h fun k' hk' => hf k' (List.mem_append_left _ hk')
  have := memStep_eq cfg C (memRun cfg C s h) k (by rw [h2]; exact hf k (List.mem_append_right _ (List.mem_singleton.2 rfl)))
  rw [h1] at this
  exact this.2

/-! ### concrete cases -/

/-- the request with a Uri-Host "abc" and the payload "01" at the start of a memory of 64 bytes -/
def exHost : Bytes := [0x40, 0x01, 0x00, 0x01, 0x33, 0x61, 0x62, 0x63, 0xFF, 0x01]
def exMem (b : Bytes) : Bytes := b ++ List.replicate (64 - b.length) 0xEE

/-- the message that a call left at `out` (empty when it failed) -/
def messageAt (out : Nat) (r : R Nat × World × Bytes) : Bytes :=
  match r.1 with
  | .ok k => peek r.2.2 ⟨out, k⟩
  | _ => []

/-- the client protects the `n` bytes at 0 into `cap` bytes at `out` -/
def protectAt (s : World × Bytes) (n out cap : Nat) : R Nat × World × Bytes :=
  coap2oscoreMem exCfg toyCrypto none ⟨0, n⟩ out cap s

/-- the hypotheses of C95_protect and C95_unprotect are met by a request that is protected in place, sent, and unprotected in
place: the memories of client and server end with the protected and with the original message -/
example : ((0 : Nat) + 8 ≤ (exMem exGet).length ∧ 0 + 56 ≤ (exMem exGet).length) ∧
    messageAt 0 (protectAt (exW exClient, exMem exGet) 8 0 56) = sendOf exCfg (exW exClient) exGet ∧
    (sendOf exCfg (exW exClient) exGet).length = 22 ∧
    peek (oscore2coapMem exCfg toyCrypto ⟨0, 22⟩ 0 56 (exServer, exMem (sendOf exCfg (exW exClient) exGet))).2.2 ⟨0, 8⟩ = exGet ∧
    (oscore2coapMem exCfg toyCrypto ⟨0, 22⟩ 0 56 (exServer, exMem (sendOf exCfg (exW exClient) exGet))).1 = .ok 8 := by
  decide +kernel

/-- the writes theorems are about calls that do write: the second half of this memory is another buffer of the caller -/
example : (protectAt (exW exClient, exMem exGet) 8 0 30).1 = .ok 22 ∧
    peek (protectAt (exW exClient, exMem exGet) 8 0 30).2.2 ⟨0, 22⟩ ≠ peek (exMem exGet) ⟨0, 22⟩ ∧
    peek (protectAt (exW exClient, exMem exGet) 8 0 30).2.2 ⟨30, 34⟩ = peek (exMem exGet) ⟨30, 34⟩ := by
  decide +kernel

/-- a client that uses one buffer for everything: it protects a request in place, writes the reply of the server over it,
unprotects that in place -/
def exCalls (rsp : Bytes) : List MemCall :=
  [{ fill := fun m => blit m 0 exGet, protect := true, nvmW := none, i := ⟨0, 8⟩, out := 0, cap := 64 },
   { fill := fun m => blit m 0 rsp, protect := false, nvmW := none, i := ⟨0, rsp.length⟩, out := 0, cap := 64 }]

/-- the reply of the server to `exGet` -/
def exReply : Bytes := sendOf exCfg (exW (oscore2coap exCfg toyCrypto (sendOf exCfg (exW exClient) exGet) 64 exServer).2) exRsp

example : (∀ k ∈ exCalls exReply, k.Fits 64) ∧ (exMem []).length = 64 ∧ exReply.length = 19 ∧
    peek (memRun exCfg toyCrypto (exW exClient, exMem []) (exCalls exReply)).2 ⟨0, 8⟩ = exRsp := by
  refine ⟨?_, by decide +kernel, by decide +kernel, by decide +kernel⟩
  have hr : exReply.length = 19 := by decide +kernel
  intro k hk
  simp only [exCalls, List.mem_cons, List.not_mem_nil, or_false] at hk
  rcases hk with rfl | rfl
  · exact ⟨fun m hm => (blit_length (by rw [hm]; decide)).trans hm, by decide, by decide, .inl rfl⟩
  · exact ⟨fun m hm => (blit_length (by rw [hm, hr]; decide)).trans hm, by rw [hr]; decide, by dsimp only; decide, .inl rfl⟩

/-- **C95** is false of buffers that overlap in another way.  The output buffer starts at the value of Uri-Host in the input
buffer: the call returns ok, the header is written over the value before it is copied, and the server accepts a request for
another host. -/
theorem C95_false_shifted :
    (protectAt (exW exClient, exMem exHost) 10 5 56).1 = .ok 24 ∧
    (oscore2coap exCfg toyCrypto (messageAt 5 (protectAt (exW exClient, exMem exHost) 10 5 56)) 256 exServer).1 =
      .ok [0x40, 0x01, 0x00, 0x01, 0x33, 0x40, 0x02, 0x00, 0xFF, 0x01] ∧
    (oscore2coap exCfg toyCrypto (messageAt 0 (protectAt (exW exClient, exMem exHost) 10 0 56)) 256 exServer).1 = .ok exHost := by
  decide +kernel

/-- the state after a GET was refused in place, because the buffer is too small for the protected message -/
def refused : World × Bytes := (protectAt (exW exClient, exMem exGet) 8 0 8).2

/-- **C95**: a call in place that fails has already written over the message.  A GET that does not fit is refused with
`buffer_to_small`; the same call again, with the whole buffer, returns ok, and the server accepts a POST. -/
theorem C95_false_retry_in_place :
    (protectAt (exW exClient, exMem exGet) 8 0 8).1 = .err .buffer_to_small ∧
    (protectAt refused 8 0 56).1 = .ok 22 ∧
    (oscore2coap exCfg toyCrypto (messageAt 0 (protectAt refused 8 0 56)) 256 exServer).1 =
      .ok [0x41, 0x02, 0x12, 0x34, 0x4A, 0xB2, 0x74, 0x76] ∧
    exGet = [0x41, 0x01, 0x12, 0x34, 0x4A, 0xB2, 0x74, 0x76] := by
  decide +kernel

end Verif.InPlace
