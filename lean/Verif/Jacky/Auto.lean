import Verif.Jacky.Like
import Verif.Jacky.Search
/-!
# C140, C141: the automatic histograms
-/
namespace Verif.Jacky
open Verif.Hist Verif.Hist.Spec X Spec
open Classical

theorem front_ok {data : List (Option ℝ)} {as : List ℝ} {bs : List Nat} {o : Opts} {mn mx : ℝ}
    (hr : Range (numbers data) mn mx) (rest : List ℝ → List ℝ → List Nat → M Ret) :
    front (some data) (some as) (some bs) o rest = rest (numbers data) as bs := by
  obtain ⟨h1, h2, _, h4⟩ := hr
  simp only [numbers, List.mem_filterMap, id] at h1 h2
  obtain ⟨x, hx, rfl⟩ := h1
  obtain ⟨y, hy, rfl⟩ := h2
  have hl0 : data.length ≠ 0 := by have := List.length_pos_of_mem hx; omega
  have hl1 : data.length ≠ 1 := by
    intro h
    obtain ⟨z, rfl⟩ := List.length_eq_one_iff.1 h
    simp only [List.mem_singleton] at hx hy
    have := hx.trans hy.symm
    simp only [Option.some.injEq] at this
    rw [this] at h4
    exact lt_irrefl _ h4
  have hn : ¬ ∀ x ∈ data, x = none := fun h => by cases h _ hx
  rw [front, if_neg hl0, if_neg hl1, if_neg hn]
  rfl

theorem firstMax_congr {A : Type} {cs : List A} {L L' : A → Option EReal} {a : A}
    (h : ∀ c ∈ cs, L c = L' c) (hf : FirstMax cs L a) : FirstMax cs L' a := by
  obtain ⟨pre, post, v, rfl, h2, h3, h4⟩ := hf
  refine ⟨pre, post, v, rfl, by rw [← h a (by simp)]; exact h2, ?_, ?_⟩
  · intro x hx u hu; exact h3 x hx u (by rw [h x (by simp [hx])]; exact hu)
  · intro x hx u hu; exact h4 x hx u (by rw [h x (by simp [hx])]; exact hu)

theorem firstMax_map {A B : Type} {cs : List A} (f : A → B) {L : B → Option EReal} {b : B}
    (hf : FirstMax (cs.map f) L b) : ∃ a ∈ cs, f a = b ∧ FirstMax cs (fun a => L (f a)) a := by
  obtain ⟨pre, post, v, h1, h2, h3, h4⟩ := hf
  obtain ⟨pre', rest, rfl, rfl, hrest⟩ := List.map_eq_append_iff.1 h1
  obtain ⟨a, post', rfl, rfl, rfl⟩ := List.map_eq_cons_iff.1 hrest
  refine ⟨a, by simp, rfl, pre', post', v, rfl, h2, ?_, ?_⟩
  · intro x hx u hu; exact h3 _ (List.mem_map.2 ⟨x, hx, rfl⟩) u hu
  · intro x hx u hu; exact h4 _ (List.mem_map.2 ⟨x, hx, rfl⟩) u hu

theorem mem_grid {as : List ℝ} {bs : List Nat} {c : ℝ × Nat} : c ∈ grid as bs ↔ c.1 ∈ as ∧ c.2 ∈ bs := by
  simp only [grid, List.mem_flatMap, List.mem_map]
  constructor
  · rintro ⟨a, ha, n, hn, rfl⟩; exact ⟨ha, hn⟩
  · rintro ⟨h1, h2⟩; exact ⟨c.1, h1, c.2, h2, rfl⟩

theorem combos3_zero (as : List ℝ) (bs : List Nat) :
    combos3 as bs [0] = (grid as bs).map fun c => (c.1, c.2, (0 : ℝ)) := by
  simp only [combos3, grid, List.map_flatMap, List.map_map, List.map_cons, List.map_nil]
  congr 1
  funext a
  induction bs with
  | nil => rfl
  | cons b t ih => simpa using ih

/-- The value the search of the formula with factor `k` sees. -/
noncomputable def val (d : List ℝ) (mn mx : ℝ) (k : ℝ × Nat → ℝ) (c : ℝ × Nat) : X :=
  if 1 < c.1 ∨ ∀ i < c.2, binCount d mn mx c.2 i ≠ 0 then fin (formula d mn mx (k c) c) else nan

/-- The cython factor. -/
noncomputable def kCython (c : ℝ × Nat) : ℝ := convCythonNoLoop c.2 c.1

theorem kCython_pos {c : ℝ × Nat} (h1 : 0 < c.1) (h2 : 1 ≤ c.2) : 0 < kCython c := by
  have : (1 : ℝ) ≤ c.2 := by exact_mod_cast h2
  rw [kCython, convCythonNoLoop]
  nlinarith

section
variable {d : List ℝ} {mn mx : ℝ} {as : List ℝ} {bs : List Nat} {o : Opts}

theorem val_score (hr : Range d mn mx) {c : ℝ × Nat} (hc : 1 ≤ c.2) :
    toL (val d mn mx (fun c => convNumpy d.length c.2 c.1) c) = score d mn mx c := by
  rw [val, score]
  split_ifs
  · rw [← formula_eq_leaveOneOut hr hc]; rfl
  · rfl

theorem evalNumpy_ok (hr : Range d mn mx) (hu : Usable as bs o) {c : ℝ × Nat} (hc : c ∈ grid as bs) :
    evalNumpy d c = .ok (val d mn mx (fun c => convNumpy d.length c.2 c.1) c,
      fin ((mx - mn) / c.2), fin c.1, c.2) := by
  obtain ⟨h1, h2⟩ := mem_grid.1 hc
  have hn := hu.binsPos _ h2
  rw [evalNumpy, npHistogram_eq hr hn, binWidth_eq hr hn]
  refine congrArg Except.ok (Prod.ext ?_ rfl)
  dsimp only
  rw [convN, jacky_eq hr hn (hu.pos _ h1) (convNumpy_pos hr hn (hu.pos _ h1))]
  rfl

theorem evalB_ok (hr : Range d mn mx) (hu : Usable as bs o) (B : Backend)
    (k : ℝ × Nat → ℝ) (hB : (B = cython ∧ k = kCython) ∨
      ((B = numexpr ∨ B = blas) ∧ k = fun c => convNumpy d.length c.2 c.1))
    {c : ℝ × Nat} (hc : c ∈ grid as bs) :
    evalB B o d (c.1, c.2, 0) = .ok (val d mn mx k c, fin ((mx - mn) / c.2), (fin c.1, c.2), fin 0) := by
  obtain ⟨h1, h2⟩ := mem_grid.1 hc
  have hn := hu.binsPos _ h2
  have hα := hu.pos _ h1
  have hidx : B.idx = idxCy ∨ B.idx = idxNe ∨ B.idx = idxBl := by
    rcases hB with ⟨rfl, _⟩ | ⟨rfl | rfl, _⟩
    · exact Or.inl rfl
    · exact Or.inr (Or.inl rfl)
    · exact Or.inr (Or.inr rfl)
  simp only [evalB]
  rw [binWidth_eq hr hn, counts_eq B hidx hr hn]
  refine congrArg Except.ok (Prod.ext ?_ rfl)
  dsimp only
  rcases hB with ⟨rfl, rfl⟩ | ⟨rfl | rfl, rfl⟩
  · have : cython.conv (tab c.2 (binCount d mn mx c.2)) c.1 = fin (kCython c) := by
      simp [cython, kCython]
    rw [this]
    exact jacky_eq hr hn hα (kCython_pos hα hn)
  · rw [conv_numexpr hr hn]
    exact jacky_eq hr hn hα (convNumpy_pos hr hn hα)
  · rw [conv_blas hr hn hα]
    show jackyBl _ _ _ _ = _
    rw [jackyBl_eq _ _ (width_pos hr hn) (convNumpy_pos hr hn hα)]
    exact jacky_eq hr hn hα (convNumpy_pos hr hn hα)

/-- Some combination has a finite likelihood. -/
theorem exists_val (hu : Usable as bs o) (k : ℝ × Nat → ℝ) :
    ∃ c ∈ grid as bs, ∃ r, val d mn mx k c = fin r := by
  obtain ⟨α, hα, h1⟩ := hu.big
  obtain ⟨n, hn⟩ := List.exists_mem_of_ne_nil _ hu.nonempty
  exact ⟨(α, n), mem_grid.2 ⟨hα, hn⟩, _, by rw [val, if_pos (Or.inl h1)]⟩

theorem normalise_eq (hr : Range d mn mx) {n : Nat} (hn : 1 ≤ n) :
    normalise o (tab n (binCount d mn mx n)) d.length (fin ((mx - mn) / n)) =
      tab n fun i => fin (bar o.prob o.dens d.length ((mx - mn) / n) (binCount d mn mx n i)) := by
  have hN : (d.length : ℝ) ≠ 0 := by exact_mod_cast (by have := one_le_length hr; omega : d.length ≠ 0)
  have hw := (width_pos hr hn).ne'
  simp only [normalise, tab, bar, List.map_map]
  split_ifs
  · apply List.map_congr_left
    intro i _
    simp only [Function.comp]; rw [div_fin hN]
  · apply List.map_congr_left
    intro i _
    simp only [Function.comp]; rw [mul_fin, div_fin (mul_ne_zero hN hw)]
  · rfl

theorem normaliseBl_eq (hr : Range d mn mx) {n : Nat} (hn : 1 ≤ n) :
    normaliseBl o (tab n (binCount d mn mx n)) d.length (fin ((mx - mn) / n)) =
      tab n fun i => fin (bar o.prob o.dens d.length ((mx - mn) / n) (binCount d mn mx n i)) := by
  rw [← normalise_eq hr hn]
  have hN : (d.length : ℝ) ≠ 0 := by exact_mod_cast (by have := one_le_length hr; omega : d.length ≠ 0)
  have hw := (width_pos hr hn).ne'
  simp only [normalise, normaliseBl, tab, List.map_map]
  split_ifs
  · apply List.map_congr_left
    intro i _
    simp only [Function.comp]; rw [div_fin hN, div_fin hN, mul_fin]; congr 1; field_simp
  · apply List.map_congr_left
    intro i _
    simp only [Function.comp]
    rw [mul_fin, div_fin (mul_ne_zero hN hw), div_fin (mul_ne_zero hN hw), mul_fin]
    congr 1; field_simp
  · rfl

theorem finishNumpy_ok (hr : Range d mn mx) (hu : Usable as bs o) {c : ℝ × Nat} (hc : c ∈ grid as bs) :
    ∃ r, finishNumpy o d (fin ((mx - mn) / c.2), fin c.1, c.2) = .ok r ∧
      IsHist d mn mx c.2 o.prob o.dens r ∧ r.params = reported o c := by
  have hn := hu.binsPos _ (mem_grid.1 hc).2
  refine ⟨⟨some (tab c.2 fun i => fin (bar o.prob o.dens d.length ((mx - mn) / c.2) (binCount d mn mx c.2 i))),
      some (tab (c.2 + 1) fun i => fin (mn + i * ((mx - mn) / c.2))),
      some (.scalar (fin ((mx - mn) / c.2))), reported o c⟩, ?_, ?_, ?_⟩
  · rw [finishNumpy, hu.quiet, if_neg (by simp), npHistogram_eq hr hn]
    show Except.ok _ = Except.ok _
    dsimp only
    rw [normalise_eq hr hn]
    simp only [tab, List.map_map]
    rfl
  · exact ⟨rfl, rfl, rfl⟩
  · rfl

end

/-- The result of an entry point on ordinary data: the histogram of the numbers among the data, for the
first combination of the grid with the largest leave-one-out likelihood. -/
def Best (data : List (Option ℝ)) (as : List ℝ) (bs : List Nat) (o : Opts) (mn mx : ℝ) (res : M Ret) : Prop :=
  ∃ c ∈ grid as bs, ∃ r, res = .ok r ∧ IsHist (numbers data) mn mx c.2 o.prob o.dens r ∧
    r.params = reported o c ∧ FirstMax (grid as bs) (score (numbers data) mn mx) c

variable {data : List (Option ℝ)} {mn mx : ℝ} {as : List ℝ} {bs : List Nat} {o : Opts}

theorem firstMax_score (hr : Range (numbers data) mn mx) (hu : Usable as bs o) {c : ℝ × Nat}
    (h : FirstMax (grid as bs)
      (fun c => toL (val (numbers data) mn mx (fun c => convNumpy (numbers data).length c.2 c.1) c)) c) :
    FirstMax (grid as bs) (score (numbers data) mn mx) c :=
  firstMax_congr (fun c hc => val_score hr (hu.binsPos _ (mem_grid.1 hc).2)) h

theorem customWidth_ok (hu : Usable as bs o) : ∃ w, customWidth o = .ok w := by
  cases h : o.custom with
  | nil => exact absurd h hu.custom
  | cons w t => exact ⟨w, by rw [customWidth, h]⟩

/-- C141: the iterator version. -/
theorem C141_iterator (hr : Range (numbers data) mn mx) (hu : Usable as bs o) :
    Best data as bs o mn mx (likelihoodIter (some data) (some as) (some bs) o) := by
  obtain ⟨w0, hw0⟩ := customWidth_ok hu
  obtain ⟨c, hc, hf, hs⟩ := searchLoop_spec (fin w0, fin 1, 1) (grid as bs) (evalNumpy (numbers data))
    _ (fun c => (fin ((mx - mn) / c.2), fin c.1, c.2)) (fun c hc => evalNumpy_ok hr hu hc)
    (exists_val (d := numbers data) (mn := mn) (mx := mx) hu _)
  obtain ⟨r, e1, e2, e3⟩ := finishNumpy_ok hr hu hc
  refine ⟨c, hc, r, ?_, e2, e3, firstMax_score hr hu hf⟩
  rw [likelihoodIter, front_ok hr, hw0]
  show (searchLoop _ (grid as bs) _).bind _ = _
  rw [hs]
  exact e1

theorem mapM_ok {A B : Type} (cs : List A) (f : A → M B) (g : A → B) (h : ∀ a ∈ cs, f a = .ok (g a)) :
    cs.mapM f = .ok (cs.map g) := by
  induction cs with
  | nil => rfl
  | cons a t ih =>
    rw [List.mapM_cons, h a (by simp), ih (fun a ha => h a (List.mem_cons_of_mem _ ha))]
    rfl

theorem pickNumpy_ok {A S : Type} (cs : List A) (v : A → X) (s : A → S) (i : Nat) (c : A)
    (h1 : nanargmax (cs.map v) = .ok i) (h2 : cs[i]? = some c) :
    pickNumpy (cs.map fun a => (v a, s a)) = .ok (s c) := by
  have : (cs.map fun a => (v a, s a)).map Prod.fst = cs.map v := by rw [List.map_map]; rfl
  rw [pickNumpy, this, h1]
  simp only [Except.bind, List.getElem?_map, h2, Option.map_some]

/-- C141: the numpy version. -/
theorem C141_numpy (hr : Range (numbers data) mn mx) (hu : Usable as bs o) :
    Best data as bs o mn mx (likelihoodNumpy (some data) (some as) (some bs) o) := by
  obtain ⟨c, hc, hf, _⟩ := searchLoop_spec (fin 1, fin 1, 1) (grid as bs) (evalNumpy (numbers data))
    _ (fun c => (fin ((mx - mn) / c.2), fin c.1, c.2)) (fun c hc => evalNumpy_ok hr hu hc)
    (exists_val (d := numbers data) (mn := mn) (mx := mx) hu _)
  obtain ⟨r, e1, e2, e3⟩ := finishNumpy_ok hr hu hc
  refine ⟨c, hc, r, ?_, e2, e3, firstMax_score hr hu hf⟩
  have hfin : ∃ r, val (numbers data) mn mx (fun c => convNumpy (numbers data).length c.2 c.1) c = fin r := by
    obtain ⟨_, _, _, _, h2, _⟩ := hf
    by_cases h : 1 < c.1 ∨ ∀ i < c.2, binCount (numbers data) mn mx c.2 i ≠ 0
    · exact ⟨_, by rw [val, if_pos h]⟩
    · simp only [val, if_neg h, toL] at h2
      cases h2
  obtain ⟨i, h1, h2⟩ := nanargmax_spec (grid as bs) _ c hf hfin
  rw [likelihoodNumpy, front_ok hr]
  have hm := mapM_ok (grid as bs) (evalNumpy (numbers data)) _ (fun c hc => evalNumpy_ok hr hu hc)
  have hp := pickNumpy_ok (grid as bs) _ (fun c : ℝ × Nat => (fin ((mx - mn) / c.2), fin c.1, c.2)) i c h1 h2
  show Except.bind ((grid as bs).mapM (evalNumpy (numbers data))) _ = _
  rw [hm]
  show Except.bind (pickNumpy _) _ = _
  rw [hp]
  exact e1

/-- The three other modules at phase 0. -/
theorem likelihoodB_ok (hr : Range (numbers data) mn mx) (hu : Usable as bs o) (B : Backend)
    (k : ℝ × Nat → ℝ) (hB : (B = cython ∧ k = kCython) ∨
      ((B = numexpr ∨ B = blas) ∧ k = fun c => convNumpy (numbers data).length c.2 c.1)) :
    ∃ c ∈ grid as bs, ∃ r, likelihoodB B (some data) (some as) (some bs) [0] o = .ok r ∧
      IsHist (numbers data) mn mx c.2 o.prob o.dens r ∧ r.params = reported o c ∧
      FirstMax (grid as bs) (fun c => toL (val (numbers data) mn mx k c)) c := by
  obtain ⟨w0, hw0⟩ := customWidth_ok hu
  obtain ⟨c0, hc0, hv0⟩ := exists_val (d := numbers data) (mn := mn) (mx := mx) hu k
  obtain ⟨c3, hc3, hf3, hs⟩ := searchLoop_spec (fin w0, B.init, nan) (combos3 as bs [0])
    (evalB B o (numbers data)) (fun c => val (numbers data) mn mx k (c.1, c.2.1))
    (fun c => (fin ((mx - mn) / c.2.1), (fin c.1, c.2.1), fin 0))
    (fun c hc => by
      rw [combos3_zero] at hc
      obtain ⟨c', hc', rfl⟩ := List.mem_map.1 hc
      exact evalB_ok hr hu B k hB hc')
    (by
      rw [combos3_zero]
      exact ⟨_, List.mem_map.2 ⟨c0, hc0, rfl⟩, hv0⟩)
  rw [combos3_zero] at hf3
  obtain ⟨c, hc, rfl, hf⟩ := firstMax_map (fun c : ℝ × Nat => (c.1, c.2, (0 : ℝ))) hf3
  have hn := hu.binsPos _ (mem_grid.1 hc).2
  have hidx : B.idx = idxCy ∨ B.idx = idxNe ∨ B.idx = idxBl := by
    rcases hB with ⟨rfl, _⟩ | ⟨rfl | rfl, _⟩
    · exact Or.inl rfl
    · exact Or.inr (Or.inl rfl)
    · exact Or.inr (Or.inr rfl)
  obtain ⟨hmn, hmx⟩ := range_iff hr
  refine ⟨c, hc, ⟨some (tab c.2 fun i => fin (bar o.prob o.dens (numbers data).length ((mx - mn) / c.2)
      (binCount (numbers data) mn mx c.2 i))),
      some (tab (c.2 + 1) fun i => fin (mn + i * ((mx - mn) / c.2))),
      some (.scalar (fin ((mx - mn) / c.2))), reported o c⟩, ?_, ⟨rfl, rfl, rfl⟩, rfl, hf⟩
  rw [likelihoodB, front_ok hr, hw0]
  show (searchLoop _ _ _).bind _ = _
  rw [hs]
  show (if o.verbose = true then _ else _) = _
  rw [hu.quiet, if_neg (by simp), histogramB]
  show Except.map _ (Except.map _ (counts B (numbers data) (amin (numbers data))
    (fin ((mx - mn) / c.2)) (fin 0) c.2 0 o.checks)) = _
  rw [counts_eq B hidx hr hn]
  show Except.ok _ = Except.ok _
  congr 1
  have hnorm : B.norm o (tab c.2 (binCount (numbers data) mn mx c.2)) (numbers data).length
      (fin ((mx - mn) / c.2)) = tab c.2 fun i => fin (bar o.prob o.dens (numbers data).length
      ((mx - mn) / c.2) (binCount (numbers data) mn mx c.2 i)) := by
    rcases hB with ⟨rfl, _⟩ | ⟨rfl | rfl, _⟩
    · exact normalise_eq hr hn
    · exact normalise_eq hr hn
    · exact normaliseBl_eq hr hn
  simp only [hnorm, hmn, hmx]
  rw [linspace, if_neg (by omega)]
  simp only [tab, List.map_map]
  rfl

/-- C141: the numexpr version at phase 0. -/
theorem C141_numexpr (hr : Range (numbers data) mn mx) (hu : Usable as bs o) :
    Best data as bs o mn mx (likelihoodB numexpr (some data) (some as) (some bs) [0] o) := by
  obtain ⟨c, hc, r, h1, h2, h3, h4⟩ := likelihoodB_ok hr hu numexpr _ (Or.inr ⟨Or.inl rfl, rfl⟩)
  exact ⟨c, hc, r, h1, h2, h3, firstMax_score hr hu h4⟩

/-- C141: the blas version at phase 0. -/
theorem C141_blas (hr : Range (numbers data) mn mx) (hu : Usable as bs o) :
    Best data as bs o mn mx (likelihoodB blas (some data) (some as) (some bs) [0] o) := by
  obtain ⟨c, hc, r, h1, h2, h3, h4⟩ := likelihoodB_ok hr hu blas _ (Or.inr ⟨Or.inr rfl, rfl⟩)
  exact ⟨c, hc, r, h1, h2, h3, firstMax_score hr hu h4⟩

/-- C140: every version (cython included) returns the histogram of the data for some tried combination. -/
theorem C140_histogram_of_the_data (hr : Range (numbers data) mn mx) (hu : Usable as bs o) (res : M Ret)
    (hres : res = likelihoodNumpy (some data) (some as) (some bs) o ∨
      res = likelihoodIter (some data) (some as) (some bs) o ∨
      res = likelihoodB cython (some data) (some as) (some bs) [0] o ∨
      res = likelihoodB numexpr (some data) (some as) (some bs) [0] o ∨
      res = likelihoodB blas (some data) (some as) (some bs) [0] o) :
    ∃ α ∈ as, ∃ n ∈ bs, ∃ r, res = .ok r ∧ IsHist (numbers data) mn mx n o.prob o.dens r ∧
      r.params = reported o (α, n) := by
  have aux : ∀ {res}, Best data as bs o mn mx res → ∃ α ∈ as, ∃ n ∈ bs, ∃ r, res = .ok r ∧
      IsHist (numbers data) mn mx n o.prob o.dens r ∧ r.params = reported o (α, n) := by
    rintro res ⟨c, hc, r, h1, h2, h3, _⟩
    exact ⟨c.1, (mem_grid.1 hc).1, c.2, (mem_grid.1 hc).2, r, h1, h2, h3⟩
  rcases hres with rfl | rfl | rfl | rfl | rfl
  · exact aux (C141_numpy hr hu)
  · exact aux (C141_iterator hr hu)
  · obtain ⟨c, hc, r, h1, h2, h3, _⟩ := likelihoodB_ok hr hu cython _ (Or.inl ⟨rfl, rfl⟩)
    exact ⟨c.1, (mem_grid.1 hc).1, c.2, (mem_grid.1 hc).2, r, h1, h2, h3⟩
  · exact aux (C141_numexpr hr hu)
  · exact aux (C141_blas hr hu)

end Verif.Jacky
