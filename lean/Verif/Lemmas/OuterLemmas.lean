import Verif.Lemmas.SplitLemmas
import Verif.Props.OscoreOption
import Verif.Props.PivNonce
/-
The outer (protected) message: how it is serialised and what the receiver's parser sees.
-/
namespace Verif

theorem numsOk_lt {prev : Nat} {l : List Opt} (h : numsOk prev l) : ∀ o ∈ l, o.num < 65536 := by
  induction l generalizing prev with
  | nil => simp
  | cons o os ih =>
    intro x hx
    rcases List.mem_cons.1 hx with rfl | hx
    · rw [h.1]; omega
    · exact ih h.2 x hx

theorem notClassE_le {n : Nat} (h : isClassE n = false) : n ≤ 39 := by
  unfold isClassE optURI_HOST optURI_PORT optOSCORE optPROXY_URI optPROXY_SCHEME optEDHOC at h
  simp only [Bool.and_eq_false_iff, bne_eq_false_iff_eq] at h
  omega

theorem outerOpts_le {opts : List Opt} : ∀ o ∈ outerOpts opts, o.num ≤ 39 := by
  intro o ho
  unfold outerOpts at ho
  rw [List.mem_filter] at ho
  obtain ⟨_, h⟩ := ho
  simp only [Bool.or_eq_true, beq_iff_eq, Bool.not_eq_true'] at h
  rcases h with h | h
  · rw [h]; decide
  · exact notClassE_le h

theorem outerDeltas_eq {prev : Nat} {l : List Opt} (hp : prev < 256) (h : ∀ o ∈ l, o.num < 256) :
    outerDeltas prev l = redelta prev l := by
  induction l generalizing prev with
  | nil => rfl
  | cons o os ih =>
    have ho := h o (by simp)
    simp only [outerDeltas, redelta]
    have : (prev + (o.num + 65536 - prev) % 65536) % 256 = o.num := by omega
    rw [this, ih ho (fun x hx => h x (List.mem_cons_of_mem _ hx))]

theorem redelta_numsOk {prev : Nat} {l : List Opt} (hp : prev < 65536) (h : ∀ o ∈ l, o.num < 65536) :
    numsOk prev (redelta prev l) := by
  induction l generalizing prev with
  | nil => trivial
  | cons o os ih =>
    have ho := h o (by simp)
    simp only [redelta, numsOk]
    exact ⟨by omega, ih ho (fun x hx => h x (List.mem_cons_of_mem _ hx))⟩

theorem redelta_delta_small {prev : Nat} {l : List Opt} (hp : prev < 256) (h : ∀ o ∈ l, o.num < 256) :
    ∀ o ∈ redelta prev l, deltaOk o.delta := by
  induction l generalizing prev with
  | nil => simp [redelta]
  | cons o os ih =>
    have ho := h o (by simp)
    intro x hx
    simp only [redelta, List.mem_cons] at hx
    rcases hx with rfl | hx
    · unfold deltaOk; simp only; omega
    · exact ih ho (fun x hx => h x (List.mem_cons_of_mem _ hx)) x hx

theorem len_le_optBytesLen {l : List Opt} {o : Opt} (h : o ∈ l) : 5 + o.len ≤ optBytesLen l := by
  induction l with
  | nil => cases h
  | cons a l ih =>
    simp only [optBytesLen, List.map_cons, List.sum_cons]
    rcases List.mem_cons.1 h with rfl | h
    · omega
    · have := ih h; unfold optBytesLen at this; omega

/-- the options of the protected message, in order -/
def protectedOpts (u : List Opt) (optVal : Bytes) : List Opt :=
  u.takeWhile (fun o => o.num ≤ optOSCORE) ++ [{ delta := 0, value := optVal, num := optOSCORE }] ++
    u.dropWhile (fun o => o.num ≤ optOSCORE)

theorem protectedOpts_length (u : List Opt) (v : Bytes) :
    (protectedOpts u v).length = u.length + 1 := by
  have := congrArg List.length (List.takeWhile_append_dropWhile (p := fun o : Opt => decide (o.num ≤ optOSCORE)) (l := u))
  simp only [List.length_append] at this
  simp only [protectedOpts, List.length_append, List.length_cons, List.length_nil]
  omega

theorem mem_protectedOpts {u : List Opt} {v : Bytes} {o : Opt} :
    o ∈ protectedOpts u v ↔ o ∈ u ∨ o = ⟨0, v, optOSCORE⟩ := by
  have h : o ∈ u ↔ o ∈ u.takeWhile (fun o => decide (o.num ≤ optOSCORE)) ∨
      o ∈ u.dropWhile (fun o => decide (o.num ≤ optOSCORE)) := by
    rw [← List.mem_append, List.takeWhile_append_dropWhile]
  unfold protectedOpts
  rw [h]
  simp only [List.mem_append, List.mem_singleton]
  constructor
  · rintro ((h | h) | h)
    · exact Or.inl (Or.inl h)
    · exact Or.inr h
    · exact Or.inl (Or.inr h)
  · rintro ((h | h) | h)
    · exact Or.inl (Or.inl h)
    · exact Or.inr h
    · exact Or.inl (Or.inr h)

theorem redelta_outer_le {opts : List Opt} : ∀ o ∈ redelta 0 (outerOpts opts), o.num ≤ 39 := by
  intro o ho
  obtain ⟨o', h1, h2, _⟩ := mem_redelta ho
  rw [← h2]; exact outerOpts_le o' h1

theorem oscorePkg_opts {p : Pkt} {u : List Opt} {ct v : Bytes} (hu : ∀ o ∈ u, o.num ≤ 39) :
    (oscorePkgGenerate p u ct v).opts = redelta 0 (protectedOpts u v) := by
  unfold oscorePkgGenerate
  simp only
  rw [outerDeltas_eq (by omega)]
  · rfl
  · intro o ho
    rcases mem_protectedOpts.1 ho with h | rfl
    · have := hu o h; omega
    · unfold optOSCORE; simp

/-- A protected message (at most 18 outer options, short option values) is a packet that the codec
treats symmetrically. -/
theorem oscorePkg_ok {p : Pkt} {u : List Opt} {ct v : Bytes} (hp : PktRange p)
    (hu : ∀ o ∈ u, o.num ≤ 39) (hcount : u.length ≤ 18)
    (hlen : ∀ o ∈ u, o.len < 256) (hv : v.length < 256) :
    PktOk (oscorePkgGenerate p u ct v) := by
  have ho := oscorePkg_opts (p := p) (ct := ct) (v := v) hu
  have hlt : ∀ o ∈ protectedOpts u v, o.num < 256 := by
    intro o hm
    rcases mem_protectedOpts.1 hm with h | rfl
    · have := hu o h; omega
    · show optOSCORE < 256; decide
  refine ⟨hp.ver, hp.type, hp.mid, hp.token, ?_, ?_, ?_⟩
  · rw [ho, redelta_length, protectedOpts_length]; omega
  · rw [ho]
    intro o hm
    refine ⟨redelta_delta_small (by omega) hlt o hm, ?_⟩
    obtain ⟨o', h1, _, h3⟩ := mem_redelta hm
    left
    unfold Opt.len
    rw [← h3]
    rcases mem_protectedOpts.1 h1 with h | rfl
    · exact hlen o' h
    · exact hv
  · rw [ho]
    exact redelta_numsOk (by omega) (fun o h => by have := hlt o h; omega)

theorem optBytesLen_redelta (prev : Nat) (l : List Opt) :
    optBytesLen (redelta prev l) = optBytesLen l := by
  induction l generalizing prev with
  | nil => rfl
  | cons o os ih =>
    have := ih o.num
    unfold optBytesLen at *
    simp only [redelta, List.map_cons, List.sum_cons, Opt.len] at *
    omega

/-- From a successful serialisation: option lengths are bounded by the option buffer. -/
theorem serialize_lens {cfg : Cfg} {p : Pkt} {cap : Nat} {b : Bytes}
    (h : coapSerialize cfg p cap = .ok b) (hcfg : cfg.maxCoapOptions ≤ 260) :
    ∀ o ∈ p.opts, o.len < 256 := by
  obtain ⟨_, _, h3⟩ := coapSerialize_ok.1 h
  intro o ho
  have := len_le_optBytesLen ho
  omega

theorem encT_append (tail : Bytes) (a b : List Opt) :
    encT tail (a ++ b) = encT (encOpts b ++ tail) a ++ encT tail b := by
  induction a with
  | nil => rfl
  | cons o a ih => simp [encT, ih, encOpts_append]

theorem parserGo_skip {acc : Option OscOpt} {a b : List (Opt × Bytes)}
    (h : ∀ x ∈ a, x.1.num ≠ optOSCORE) :
    oscoreOptionParserGo acc (a ++ b) = oscoreOptionParserGo acc b := by
  induction a generalizing acc with
  | nil => rfl
  | cons x a ih =>
    obtain ⟨o, tl⟩ := x
    have hx := h (o, tl) (by simp)
    simp only at hx
    rw [List.cons_append]
    have e : oscoreOptionParserGo acc ((o, tl) :: (a ++ b)) = oscoreOptionParserGo acc (a ++ b) := by
      cases acc <;> simp [oscoreOptionParserGo, hx]
    rw [e]
    exact ih (fun y hy => h y (List.mem_cons_of_mem _ hy))

theorem parserGo_all {a : List (Opt × Bytes)} (v : OscOpt)
    (h : ∀ x ∈ a, x.1.num ≠ optOSCORE) : oscoreOptionParserGo (some v) a = .ok v := by
  have := parserGo_skip (acc := some v) (b := []) h
  rw [List.append_nil] at this
  rw [this]; rfl

theorem mem_encT {tail : Bytes} {l : List Opt} {x : Opt × Bytes} (h : x ∈ encT tail l) : x.1 ∈ l := by
  have : x.1 ∈ (encT tail l).map Prod.fst := List.mem_map.2 ⟨x, h, rfl⟩
  rwa [encT_fst] at this

/-- number of the last option -/
def lastNum : Nat → List Opt → Nat
  | prev, [] => prev
  | _, o :: os => lastNum o.num os

theorem redelta_append (prev : Nat) (a b : List Opt) :
    redelta prev (a ++ b) = redelta prev a ++ redelta (lastNum prev a) b := by
  induction a generalizing prev with
  | nil => rfl
  | cons o a ih => simp only [List.cons_append, redelta, ih, lastNum]

/-- The receiver's option parser finds the option value that was generated, when no other outer
option is an OSCORE option. -/
theorem outer_option_parse {u : List Opt} {v tail : Bytes} (hno : ∀ o ∈ u, o.num ≠ optOSCORE) :
    ∃ rest, oscoreOptionParser (encT tail (redelta 0 (protectedOpts u v))) =
      parseOscoreValue v.length (v ++ rest) := by
  unfold protectedOpts
  rw [redelta_append, redelta_append, encT_append, encT_append]
  generalize hA : redelta 0 (u.takeWhile (fun o => decide (o.num ≤ optOSCORE))) = A
  generalize hB : redelta _ [(⟨0, v, optOSCORE⟩ : Opt)] = B
  generalize hD : redelta _ (u.dropWhile (fun o => decide (o.num ≤ optOSCORE))) = D
  have hAn : ∀ x ∈ A, x.num ≠ optOSCORE := by
    intro x hx
    rw [← hA] at hx
    obtain ⟨o', h1, h2, _⟩ := mem_redelta hx
    rw [← h2]
    exact hno o' ((List.takeWhile_prefix _).subset h1)
  have hDn : ∀ x ∈ D, x.num ≠ optOSCORE := by
    intro x hx
    rw [← hD] at hx
    obtain ⟨o', h1, h2, _⟩ := mem_redelta hx
    rw [← h2]
    exact hno o' ((List.dropWhile_suffix _).subset h1)
  refine ⟨encOpts [] ++ (encOpts D ++ tail), ?_⟩
  unfold oscoreOptionParser
  rw [List.append_assoc]
  rw [parserGo_skip (fun x hx => hAn _ (mem_encT hx))]
  rw [← hB]
  simp only [redelta, encT, List.cons_append, List.nil_append]
  simp only [oscoreOptionParserGo, if_true, Opt.len]
  cases hv : parseOscoreValue v.length (v ++ (encOpts [] ++ (encOpts D ++ tail))) with
  | ok o => simp only [R.ok_bind]; exact parserGo_all o (fun x hx => hDn _ (mem_encT hx))
  | err e => rfl
  | ub => rfl

theorem redelta_outer_noOscore {opts : List Opt} (hno : ∀ o ∈ opts, o.num ≠ optOSCORE) :
    ∀ o ∈ redelta 0 (outerOpts opts), o.num ≠ optOSCORE := by
  intro o ho
  obtain ⟨o', h1, h2, _⟩ := mem_redelta ho
  rw [← h2]
  unfold outerOpts at h1
  exact hno o' (List.mem_filter.1 h1).1

end Verif
