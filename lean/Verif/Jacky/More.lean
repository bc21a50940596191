import Verif.Jacky.Claims
import Mathlib.Tactic.Ring
/-!
# C140 (sums, phases), C143 (given width), C145 (reported parameters), C146 (data without spread)
-/
namespace Verif.Jacky
open Verif.Hist Verif.Hist.Spec X Spec
open Classical

variable {data : List (Option ℝ)} {mn mx : ℝ} {as : List ℝ} {bs : List Nat} {o : Opts}

theorem sum_tab_mul (n : Nat) (f : Nat → ℝ) (k : ℝ) : (tab n fun i => f i * k).sum = (tab n f).sum * k := by
  simp only [tab, List.sum_map_mul_right]

theorem sum_tab_cast (n : Nat) (f : Nat → Nat) : (tab n fun i => (f i : ℝ)).sum = ((tab n f).sum : Nat) := by
  simp only [tab]
  induction List.range n with
  | nil => simp
  | cons a t ih => simp [ih]

/-- C140: bars of a histogram of the data: probabilities sum to one, densities times the width of a bar sum
to one, counts sum to the number of points; with one edge more than bars, from the least to the largest
value. -/
theorem C140_total {d : List ℝ} {n : Nat} {p q : Bool} {r : Ret} (hr : Range d mn mx) (hn : 1 ≤ n)
    (h : IsHist d mn mx n p q r) :
    ∃ (bars edges : List ℝ) (w : ℝ), r.hist = some (bars.map fin) ∧ r.edges = some (edges.map fin) ∧
      r.width = some (.scalar (fin w)) ∧ bars.length = n ∧ edges.length = n + 1 ∧
      edges.head? = some mn ∧ edges.getLast? = some mx ∧ (∀ b ∈ bars, 0 ≤ b) ∧
      (p = true → bars.sum = 1) ∧ (p = false → q = true → bars.sum * w = 1) ∧
      (p = false → q = false → bars.sum = d.length) := by
  obtain ⟨h1, h2, h3⟩ := h
  have hN : (d.length : ℝ) ≠ 0 := by exact_mod_cast (by have := one_le_length hr; omega : d.length ≠ 0)
  have hw := width_pos hr hn
  have hs := sum_binCount hr hn
  refine ⟨tab n fun i => bar p q d.length ((mx - mn) / n) (binCount d mn mx n i),
    tab (n + 1) fun i => mn + i * ((mx - mn) / n), (mx - mn) / n, ?_, ?_, h3, by simp [tab], by simp [tab],
    ?_, ?_, ?_, ?_, ?_, ?_⟩
  · rw [h1]; simp only [tab, List.map_map]; rfl
  · rw [h2]; simp only [tab, List.map_map]; rfl
  · simp [tab, List.range_succ_eq_map]
  · simp only [tab, List.range_succ, List.map_append, List.map_cons, List.map_nil]
    rw [List.getLast?_append]
    simp only [List.getLast?_singleton, Option.some_or]
    rw [width_mul hn]
  · intro b hb
    simp only [tab, List.mem_map] at hb
    obtain ⟨i, _, rfl⟩ := hb
    rw [bar]
    split_ifs <;> positivity
  · rintro rfl
    have : (fun i => bar true q d.length ((mx - mn) / n) (binCount d mn mx n i)) =
        fun i => (binCount d mn mx n i : ℝ) * (1 / d.length) := by
      funext i; rw [bar, if_pos rfl]; ring
    rw [this, sum_tab_mul, sum_tab_cast, hs]
    field_simp
  · rintro rfl rfl
    have : (fun i => bar false true d.length ((mx - mn) / n) (binCount d mn mx n i)) =
        fun i => (binCount d mn mx n i : ℝ) * (1 / (d.length * ((mx - mn) / n))) := by
      funext i; rw [bar, if_neg (by simp), if_pos rfl]; ring
    rw [this, sum_tab_mul, sum_tab_cast, hs]
    have hm : mx - mn ≠ 0 := (sub_pos.2 hr.2.2.2).ne'
    field_simp
  · rintro rfl rfl
    have : (fun i => bar false false d.length ((mx - mn) / n) (binCount d mn mx n i)) =
        fun i => (binCount d mn mx n i : ℝ) := by
      funext i; rw [bar, if_neg (by simp), if_neg (by simp)]
    rw [this, sum_tab_cast, hs]

/-- The hypotheses of C140/C141 are met by the four points `0, 0, 1, 1`. -/
example : ∃ α ∈ [(2 : ℝ)], ∃ n ∈ [1, 10], ∃ r, likelihoodB cython (some exData) (some [2]) (some [1, 10]) [0]
    Opts.default = .ok r ∧ IsHist (numbers exData) 0 1 n true false r ∧ r.params = none := by
  obtain ⟨α, h1, n, h2, r, h3, h4, h5⟩ := C140_histogram_of_the_data ex_range
    (ex_usable Opts.default rfl (by simp [Opts.default])) _ (Or.inr (Or.inr (Or.inl rfl)))
  exact ⟨α, h1, n, h2, r, h3, h4, h5⟩

/-! ### A phase other than 0 -/

/-- Data of the example: 0, 0.4, 1. -/
noncomputable def exPhase : List ℝ := [0, 2 / 5, 1]

theorem exPhase_min : amin exPhase = 0 := by
  simp only [amin, exPhase, List.headD_cons, List.foldl_cons, List.foldl_nil]; norm_num
theorem exPhase_max : amax exPhase = 1 := by
  simp only [amax, exPhase, List.headD_cons, List.foldl_cons, List.foldl_nil]; norm_num

theorem exPhase_counts (checks : Bool) :
    counts blas exPhase 0 (fin (1 / 2)) (fin (1 / 2)) 2 0 checks = .ok [1, 2] := by
  have i0 : idxBl 0 (fin (1 / 2)) (fin (1 / 2)) 0 = 0 := by
    rw [idxBl, div_fin (by norm_num), mul_fin, add_fin]; simp only [toInt]
    rw [Int.floor_eq_iff]; norm_num
  have i1 : idxBl 0 (fin (1 / 2)) (fin (1 / 2)) (2 / 5) = 1 := by
    rw [idxBl, div_fin (by norm_num), mul_fin, add_fin]; simp only [toInt]
    rw [Int.floor_eq_iff]; norm_num
  have i2 : idxBl 0 (fin (1 / 2)) (fin (1 / 2)) 1 = 2 := by
    rw [idxBl, div_fin (by norm_num), mul_fin, add_fin]; simp only [toInt]
    rw [Int.floor_eq_iff]; norm_num
  have hidx : blas.idx = idxBl := rfl
  have : countsWith (blas.idx 0 (fin (1 / 2)) (fin (1 / 2))) exPhase 2 0 checks (blas.forgiven exPhase) =
      some [1, 2] := by
    rw [countsWith, if_neg (by norm_num), exPhase]
    simp only [List.map_cons, List.map_nil, hidx, i0, i1, i2]
    have : (decide (∃ x ∈ [(0 : Int), 1, 1], x < 0)) = false := by decide
    cases checks <;> rfl
  rw [counts, this]

/-- The result of the blas entry point on 0, 0.4, 1 with two bins and phase 1/2. -/
theorem exPhase_result (o : Opts) (hv : o.verbose = false) (hp : o.prob = true) (hc : o.custom ≠ []) :
    likelihoodB blas (some (exPhase.map some)) (some [2]) (some [2]) [1 / 2] o =
      .ok ⟨some [fin (1 / 3), fin (2 / 3)], some [fin 0, fin (1 / 2), fin 1], some (.scalar (fin (1 / 2))),
        binningParams o (fin 2, 2)⟩ := by
  obtain ⟨w, t, hw⟩ := List.exists_cons_of_ne_nil hc
  have hbw : binWidth (ptp exPhase) 2 = fin (1 / 2) := by
    rw [binWidth, ptp, exPhase_min, exPhase_max, div_fin (by norm_num)]; norm_num
  have hk : blas.conv [1, 2] 2 = fin 6 := by
    simp only [blas, convBlas, List.map_cons, List.map_nil, List.sum_cons, List.sum_nil]
    congr 1
    rw [abs_of_pos (by norm_num), abs_of_pos (by norm_num)]; norm_num
  have hl : ∃ v, blas.like [1, 2] (fin (1 / 2)) 2 (fin 6) = fin v := by
    show ∃ v, jackyBl _ _ _ _ = _
    rw [jackyBl_eq _ _ (by norm_num) (by norm_num), jacky]
    simp only [List.map_cons, List.map_nil]
    rw [term_pos (by norm_num) (by norm_num) (by norm_num), term_pos (by norm_num) (by norm_num) (by norm_num)]
    exact ⟨_, sum_fin [_, _]⟩
  obtain ⟨v, hl⟩ := hl
  have hev : evalB blas o exPhase (2, 2, 1 / 2) = .ok (fin v, fin (1 / 2), (fin 2, 2), fin (1 / 2)) := by
    simp only [evalB]
    rw [hbw, exPhase_min, exPhase_counts]
    show Except.ok _ = Except.ok _
    dsimp only
    rw [hk, hl]
  have hval : valued (exPhase.map some) = exPhase := by simp [valued]
  have hlen : (exPhase.map some).length = 3 := rfl
  have hne : ¬ ∀ x ∈ exPhase.map some, x = none := fun h => by cases h (some 0) (by simp [exPhase])
  rw [likelihoodB, front, hlen, if_neg (by norm_num), if_neg (by norm_num), if_neg hne, hval, customWidth, hw]
  show Except.bind (searchLoop _ [(2, 2, 1 / 2)] _) _ = _
  have hs : searchLoop (fin w, blas.init, nan) [((2 : ℝ), 2, (1 / 2 : ℝ))] (evalB blas o exPhase) =
      .ok (fin (1 / 2), (fin 2, 2), fin (1 / 2)) := by
    rw [searchLoop, List.foldlM_cons, hev]
    show Except.ok (keepBest _ _).2 = _
    rw [keepBest, if_pos (gt_fin_ninf v)]
  rw [hs]
  show (if o.verbose = true then _ else _) = _
  rw [hv, if_neg (by simp), histogramB]
  show Except.map _ (Except.map _ (counts blas exPhase (amin exPhase) (fin (1 / 2)) (fin (1 / 2)) 2 0 o.checks)) = _
  rw [exPhase_min, exPhase_max, exPhase_counts]
  show Except.ok _ = Except.ok _
  have hnorm : blas.norm o [1, 2] exPhase.length (fin (1 / 2)) = [fin (1 / 3), fin (2 / 3)] := by
    show normaliseBl o [1, 2] 3 _ = _
    rw [normaliseBl, hp, if_pos rfl]
    simp only [List.map_cons, List.map_nil]
    rw [div_fin (by norm_num), mul_fin, mul_fin]
    norm_num
  have hlin : (linspace 0 1 2).map fin = [fin 0, fin (1 / 2), fin 1] := by
    rw [linspace, if_neg (by norm_num)]
    simp only [tab, List.range_succ, List.range_zero, List.nil_append, List.map_append, List.map_cons, List.map_nil,
      List.cons_append]
    norm_num
  dsimp only
  rw [hnorm, hlin]

/-- C140 (what fails): with a phase other than 0 the bars do not belong to the returned edges: for the data
0, 0.4, 1, two bins and phase 1/2 the blas version returns the edges 0, 1/2, 1 with probability 1/3 in the
first bin, although two of the three points lie in it. -/
theorem C140_phase_wrong (o : Opts) (hv : o.verbose = false) (hp : o.prob = true) (hc : o.custom ≠ []) :
    ∃ r, likelihoodB blas (some (exPhase.map some)) (some [2]) (some [2]) [1 / 2] o = .ok r ∧
      r.edges = some [fin 0, fin (1 / 2), fin 1] ∧ r.hist = some [fin (1 / 3), fin (2 / 3)] ∧
      exPhase.countP (fun x => decide (0 ≤ x ∧ x < 1 / 2)) = 2 ∧ exPhase.length = 3 := by
  refine ⟨_, exPhase_result o hv hp hc, rfl, rfl, ?_, rfl⟩
  simp only [exPhase, List.countP_cons, List.countP_nil]
  norm_num

/-- C145 (what fails): the chosen phase is not reported; the parameters say 0 although the only phase tried
is 1/2. -/
theorem C145_phase_wrong (o : Opts) (hv : o.verbose = false) (hp : o.prob = true) (hc : o.custom ≠ [])
    (hq : o.params = true) :
    ∃ r p, likelihoodB blas (some (exPhase.map some)) (some [2]) (some [2]) [1 / 2] o = .ok r ∧
      r.params = some p ∧ p.phase = fin 0 := by
  refine ⟨_, ⟨fin 2, 2, fin 0⟩, exPhase_result o hv hp hc, ?_, rfl⟩
  show binningParams o (fin 2, 2) = _
  rw [binningParams, hq, if_pos rfl]

/-- C145: at phase 0 the reported parameters, when asked for, are a tried smoothing constant, the number of
returned bars, and phase 0; they are `None` when not asked for. -/
theorem C145_reported_partial (hr : Range (numbers data) mn mx) (hu : Usable as bs o) (res : M Ret)
    (hres : res = likelihoodNumpy (some data) (some as) (some bs) o ∨
      res = likelihoodIter (some data) (some as) (some bs) o ∨
      res = likelihoodB cython (some data) (some as) (some bs) [0] o ∨
      res = likelihoodB numexpr (some data) (some as) (some bs) [0] o ∨
      res = likelihoodB blas (some data) (some as) (some bs) [0] o) :
    ∃ r, res = .ok r ∧ (o.params = false → r.params = none) ∧
      (o.params = true → ∃ p h, r.params = some p ∧ r.hist = some h ∧ p.nrBins = h.length ∧ p.nrBins ∈ bs ∧
        (∃ α ∈ as, p.alpha = fin α) ∧ p.phase = fin 0) := by
  obtain ⟨α, hα, n, hn, r, h1, ⟨h2, _, _⟩, h3⟩ := C140_histogram_of_the_data hr hu res hres
  refine ⟨r, h1, ?_, ?_⟩
  · intro h; rw [h3, reported, h, if_neg (by simp)]
  · intro h
    refine ⟨_, _, by rw [h3, reported, h, if_pos rfl], h2, ?_, hn, ⟨α, hα, rfl⟩, rfl⟩
    simp [tab]

/-! ### Histograms with a given width -/

/-- C143: the numpy version with a given number of bins returns the bars of the data. -/
theorem C143_numpy {d : List ℝ} (hr : Range d mn mx) {n : Nat} (hn : 1 ≤ n) (o : Opts) :
    specWidthNumpy (some (d.map some)) (some n) o =
      .ok (some (tab n fun i => fin (bar o.prob o.dens d.length ((mx - mn) / n) (binCount d mn mx n i)))) := by
  have h0 : ¬ (d.map some).length = 0 := by have := one_le_length hr; simp; intro h; simp [h] at this
  rw [specWidthNumpy, if_neg h0, npHistogram_eq hr hn]
  show Except.ok _ = Except.ok _
  have hw : sub (fin ((tab (n + 1) fun i => mn + i * ((mx - mn) / n)).getD 1 0))
      (fin ((tab (n + 1) fun i => mn + i * ((mx - mn) / n)).getD 0 0)) = fin ((mx - mn) / n) := by
    rw [sub_fin]
    congr 1
    have e1 : (tab (n + 1) fun i => mn + i * ((mx - mn) / n)).getD 1 0 = mn + ((mx - mn) / n) := by
      have hm : 0 < n := hn
      simp [tab, List.getD, hm]
    have e0 : (tab (n + 1) fun i => mn + i * ((mx - mn) / n)).getD 0 0 = mn := by
      simp [tab, List.getD]
    rw [e1, e0]; ring
  dsimp only
  rw [hw, List.length_map, normalise_eq hr hn]

/-- C143 (what fails): the cython and numexpr versions never return a histogram: with data and a width they
raise `TypeError`. -/
theorem C143_keyword_wrong (d : List (Option ℝ)) (w : X) (h : d ≠ []) :
    specWidthKw (some d) (some w) = .error .typeError := by
  rw [specWidthKw, if_neg (by simpa using h)]

theorem idxBl_eq {w : ℝ} (hw : w ≠ 0) (mn φ x : ℝ) : idxBl mn (fin w) (fin φ) x = idxBlas mn w φ x := by
  rw [idxBl, div_fin hw, mul_fin, add_fin]
  rfl

/-- C143: the blas version with phase 0, a positive width and `min_nr_bins` equal to the number of bins:
bar `i` belongs to the points of bin `i` counted from the given minimum, if all the points lie in the bins.
Missing: the default `min_nr_bins` (`C143_short_wrong`), other phases. -/
theorem C143_blas_partial {d : List ℝ} (hd0 : d ≠ []) {mn w : ℝ} (hw : 0 < w) {n : Nat} (hn : 1 ≤ n)
    (hd : ∀ x ∈ d, mn ≤ x ∧ x ≤ mn + n * w) (o : Opts) :
    specWidthBlas (some d) (some (fin w)) n (fin 0) o n (some mn) =
      .ok (some (tab n fun i => fin (bar o.prob o.dens d.length w
        (d.countP fun x => decide (InEqBin mn w n i x))))) := by
  have hN : (d.length : ℝ) ≠ 0 := by
    have : d.length ≠ 0 := by simpa using hd0
    exact_mod_cast this
  have h0 : ¬ d.length = 0 := by simpa using hd0
  have hfun : blas.idx mn (fin w) (fin 0) = idxBlas mn w 0 := by
    funext x; exact idxBl_eq hw.ne' mn 0 x
  have hc : countsWith (idxBlas mn w 0) d n n o.checks (blas.forgiven d) =
      some (tab n fun i => d.countP fun x => decide (InEqBin mn w n i x)) := by
    obtain ⟨c, e1, e2, e3, e4, e5⟩ := C32_equal_width_counts idxBlas (Or.inr (Or.inr rfl)) mn w hw n n hn
      o.checks (blas.forgiven d) d hd
    rw [e1]
    have hlen : c.length = n := by
      by_cases h : 2 ≤ n
      · have := e3 h; omega
      · have h1 : n = 1 := by omega
        rw [countsWith, if_pos h1, Option.some.injEq] at e1
        rw [← e1, h1]; rfl
    congr 1
    apply List.ext_getElem
    · simp [tab, hlen]
    · intro i h1 h2
      have := e5 i
      rw [List.getD_eq_getElem?_getD, List.getElem?_eq_getElem h1] at this
      simpa [tab] using this
  rw [specWidthBlas, if_neg h0]
  show Except.map _ (counts blas d mn (fin w) (fin 0) n n o.checks) = _
  rw [counts, hfun, hc]
  show Except.ok (some (normaliseBl _ _ _ _)) = _
  congr 2
  simp only [normaliseBl, tab, bar, List.map_map]
  split_ifs
  · apply List.map_congr_left
    intro i _
    simp only [Function.comp]; rw [div_fin hN, mul_fin]; congr 1; field_simp
  · apply List.map_congr_left
    intro i _
    simp only [Function.comp]
    rw [mul_fin, div_fin (mul_ne_zero hN hw.ne'), mul_fin]
    congr 1; field_simp
  · rfl

/-- C143 (what fails): without `min_nr_bins` the trailing empty bins are missing: for the data 0, 1, a width
of 1 and four bins the blas version returns two bars. -/
theorem C143_short_wrong (o : Opts) (hp : o.prob = true) :
    specWidthBlas (some [0, 1]) (some (fin 1)) 4 (fin 0) o 0 none = .ok (some [fin (1 / 2), fin (1 / 2)]) := by
  have hm : amin [(0 : ℝ), 1] = 0 := by
    simp only [amin, List.headD_cons, List.foldl_cons, List.foldl_nil]; norm_num
  have hfun : blas.idx 0 (fin 1) (fin 0) = idxBlas 0 1 0 := by
    funext x; exact idxBl_eq one_ne_zero 0 0 x
  have i0 : idxBlas (0 : ℝ) 1 0 0 = 0 := by rw [idxBlas, Int.floor_eq_iff]; norm_num
  have i1 : idxBlas (0 : ℝ) 1 0 1 = 1 := by rw [idxBlas, Int.floor_eq_iff]; norm_num
  have hc : countsWith (idxBlas (0 : ℝ) 1 0) [0, 1] 4 0 o.checks (blas.forgiven [0, 1]) = some [1, 1] := by
    rw [countsWith, if_neg (by norm_num)]
    simp only [List.map_cons, List.map_nil, i0, i1]
    cases o.checks <;> rfl
  rw [specWidthBlas, if_neg (by simp)]
  show Except.map _ (counts blas [0, 1] (amin [0, 1]) (fin 1) (fin 0) 4 0 o.checks) = _
  rw [hm, counts, hfun, hc]
  show Except.ok (some (normaliseBl o [1, 1] 2 _)) = _
  rw [normaliseBl, hp, if_pos rfl]
  simp only [List.map_cons, List.map_nil]
  rw [div_fin (by norm_num), mul_fin]
  norm_num

example : ∀ x ∈ ([0, 1, 7 / 2] : List ℝ), (0 : ℝ) ≤ x ∧ x ≤ 0 + (4 : ℕ) * 1 := by
  intro x hx
  simp only [List.mem_cons, List.not_mem_nil, or_false] at hx
  rcases hx with rfl | rfl | rfl <;> norm_num

/-! ### Data without spread -/

/-- C146: a single point gives one bar of height one over an interval of length one around it, whatever the
other options.  Missing: the returned width (`C146_width_wrong`), several equal points. -/
theorem C146_single_partial (x w : ℝ) (t : List ℝ) (a : List ℝ) (b : List Nat) (o : Opts) (hw : o.custom = w :: t)
    (res : M Ret)
    (hres : res = likelihoodNumpy (some [some x]) (some a) (some b) o ∨
      res = likelihoodIter (some [some x]) (some a) (some b) o ∨
      ∃ B phases, res = likelihoodB B (some [some x]) (some a) (some b) phases o) :
    res = .ok ⟨some [fin 1], some [fin (x - 1 / 2), fin (x + 1 / 2)], some (.scalar (fin w)), none⟩ := by
  have key : ∀ r, front (some [some x]) (some a) (some b) o r =
      .ok ⟨some [fin 1], some [fin (x - 1 / 2), fin (x + 1 / 2)], some (.scalar (fin w)), none⟩ := by
    intro r
    have hm : amin [x] = x := by simp [amin]
    have hM : amax [x] = x := by simp [amax]
    have hf : [some x].filterMap id = [x] := rfl
    have hi : ⌊(x - (x - 1 / 2)) * (((1 : ℕ) : ℝ) / (x + 1 / 2 - (x - 1 / 2)))⌋ = 0 := by
      rw [Int.floor_eq_iff]; norm_num
    have hp : npHistogram [some x] 1 = .ok ([1], [x - 1 / 2, x + 1 / 2]) := by
      rw [npHistogram, if_neg (by simp)]
      simp only [hf, hm, hM, if_true, List.map_cons, List.map_nil, hi, linspace]
      norm_num [tab, List.range_succ]
      ring
    rw [front, List.length_singleton, if_neg (by norm_num), if_pos rfl, hw]
    dsimp only
    rw [hp]
    show Except.ok _ = _
    simp
  rcases hres with rfl | rfl | ⟨B, ph, rfl⟩
  · exact key _
  · exact key _
  · exact key _

/-- C146 (what fails): the returned width of a single point is `custom_bin_width[0]`, not the distance of the
returned edges (unless it is 1), and the parameters are missing although asked for. -/
theorem C146_width_wrong (x w : ℝ) (hw1 : w ≠ 1) (a : List ℝ) (b : List Nat) (o : Opts) (hw : o.custom = [w])
    (hq : o.params = true) :
    ∃ r lo hi, likelihoodIter (some [some x]) (some a) (some b) o = .ok r ∧ r.edges = some [fin lo, fin hi] ∧
      r.width = some (.scalar (fin w)) ∧ w ≠ hi - lo ∧ r.params = none := by
  refine ⟨_, x - 1 / 2, x + 1 / 2, C146_single_partial x w [] a b o hw _ (Or.inr (Or.inl rfl)), rfl, rfl, ?_, rfl⟩
  intro h
  apply hw1
  rw [h]; ring

section equal
variable {d : List ℝ} {x : ℝ}

theorem equal_min (h0 : d ≠ []) (h : ∀ y ∈ d, y = x) : amin d = x := h _ (amin_spec h0).1
theorem equal_max (h0 : d ≠ []) (h : ∀ y ∈ d, y = x) : amax d = x := h _ (amax_spec h0).1

theorem equal_width (h0 : d ≠ []) (h : ∀ y ∈ d, y = x) {n : Nat} (hn : 2 ≤ n) : binWidth (ptp d) n = fin 0 := by
  have hn0 : (n : ℝ) ≠ 0 := by exact_mod_cast (by omega : n ≠ 0)
  rw [binWidth, ptp, equal_min h0 h, equal_max h0 h, div_fin hn0]; simp

theorem term_zero_width (α k : ℝ) : term 0 (fin 0) α (fin k) = nan := by
  rw [term, mul_fin, mul_zero, div, if_pos rfl, infOf]
  split_ifs
  · rfl
  · simp [log, mul, infOf]
  · rfl

theorem equal_evalNumpy (h0 : d ≠ []) (h : ∀ y ∈ d, y = x) {c : ℝ × Nat} (hn : 2 ≤ c.2) :
    evalNumpy d c = .ok (nan, fin 0, fin c.1, c.2) := by
  rw [evalNumpy, equal_width h0 h hn, npHistogram, if_neg (by simp; omega)]
  show Except.ok _ = Except.ok _
  have hf : (d.map some).filterMap id = d := by simp
  simp only [hf]
  congr 2
  rw [convN, jacky]
  apply sum_nan
  rw [List.mem_map]
  refine ⟨0, ?_, term_zero_width _ _⟩
  rw [tab, List.mem_map]
  obtain ⟨k, hk⟩ : ∃ k : Int, ∀ y ∈ d, (if ⌊(y - (if amin d = amax d then amin d - 1 / 2 else amin d)) *
      (c.2 / ((if amin d = amax d then amax d + 1 / 2 else amax d) -
        (if amin d = amax d then amin d - 1 / 2 else amin d)))⌋ = (c.2 : Int) then (c.2 : Int) - 1
      else ⌊(y - (if amin d = amax d then amin d - 1 / 2 else amin d)) *
      (c.2 / ((if amin d = amax d then amax d + 1 / 2 else amax d) -
        (if amin d = amax d then amin d - 1 / 2 else amin d)))⌋) = k :=
    ⟨_, fun y hy => by rw [h y hy]⟩
  have hz : ∀ i : Nat, (i : Int) ≠ k → (d.map (fun y => if ⌊(y - (if amin d = amax d then amin d - 1 / 2 else amin d)) *
      (c.2 / ((if amin d = amax d then amax d + 1 / 2 else amax d) -
        (if amin d = amax d then amin d - 1 / 2 else amin d)))⌋ = (c.2 : Int) then (c.2 : Int) - 1
      else ⌊(y - (if amin d = amax d then amin d - 1 / 2 else amin d)) *
      (c.2 / ((if amin d = amax d then amax d + 1 / 2 else amax d) -
        (if amin d = amax d then amin d - 1 / 2 else amin d)))⌋)).count (i : Int) = 0 := by
    intro i hi
    rw [List.count_eq_zero]
    intro hm
    obtain ⟨y, hy, e⟩ := List.mem_map.1 hm
    exact hi (e.symm.trans (hk y hy))
  by_cases hk0 : k = 0
  · exact ⟨1, List.mem_range.2 (by omega), hz 1 (by rw [hk0]; norm_num)⟩
  · exact ⟨0, List.mem_range.2 (by omega), hz 0 (by simpa using fun e => hk0 e.symm)⟩

theorem front_map {r : List ℝ → List ℝ → List Nat → M Ret} (hl : 2 ≤ d.length) :
    front (some (d.map some)) (some as) (some bs) o r = r d as bs := by
  obtain ⟨y, hy⟩ := List.exists_mem_of_length_pos (by omega : 0 < d.length)
  have hne : ¬ ∀ x ∈ d.map some, x = none := fun h => by cases h (some y) (List.mem_map.2 ⟨y, hy, rfl⟩)
  have hv : valued (d.map some) = d := by simp [valued]
  rw [front, List.length_map, if_neg (by omega), if_neg (by omega), if_neg hne, hv]

theorem searchLoop_nan {A S : Type} (init : S) (cs : List A) (L : A → M (X × S)) (s : A → S)
    (h : ∀ a ∈ cs, L a = .ok (nan, s a)) : searchLoop init cs L = .ok init := by
  have : ∀ b : X × S, cs.foldlM (fun b a => (L a).map (keepBest b)) b = .ok b := by
    intro b
    induction cs generalizing b with
    | nil => rfl
    | cons a t ih =>
      rw [List.foldlM_cons, h a (by simp)]
      show Except.bind (Except.ok (keepBest b (nan, s a))) _ = _
      rw [keepBest, if_neg (by simp)]
      exact ih (fun a ha => h a (List.mem_cons_of_mem _ ha)) b
  rw [searchLoop, this]
  rfl

/-- C146 (what fails): two or more equal points and bin numbers of at least 2: numpy raises `ValueError`;
cython, numexpr and blas raise `ValueError`, or exit when `additional_checks` is set; only the iterator
version returns a histogram, one bar for all points, with the custom width. -/
theorem C146_equal_wrong (hl : 2 ≤ d.length) (h : ∀ y ∈ d, y = x) (hb : ∀ n ∈ bs, 2 ≤ n) (hb0 : bs ≠ [])
    (ha0 : as ≠ []) {w : ℝ} {t : List ℝ} (hw : o.custom = w :: t) (hv : o.verbose = false) (hp : o.prob = true) :
    likelihoodNumpy (some (d.map some)) (some as) (some bs) o = .error .valueError ∧
    (∀ B, B = cython ∨ B = numexpr ∨ B = blas →
      likelihoodB B (some (d.map some)) (some as) (some bs) [0] o =
        .error (if o.checks then .sysExit else .valueError)) ∧
    ∃ r, likelihoodIter (some (d.map some)) (some as) (some bs) o = .ok r ∧ r.hist = some [fin 1] ∧
      r.edges = some [fin (x - 1 / 2), fin (x + 1 / 2)] ∧ r.width = some (.scalar (fin w)) := by
  have h0 : d ≠ [] := by rintro rfl; simp at hl
  have hall : ∀ c ∈ grid as bs, evalNumpy d c = .ok (nan, fin 0, fin c.1, c.2) := fun c hc =>
    equal_evalNumpy h0 h (hb _ (mem_grid.1 hc).2)
  refine ⟨?_, ?_, ?_⟩
  · rw [likelihoodNumpy, front_map hl]
    show Except.bind ((grid as bs).mapM (evalNumpy d)) _ = _
    rw [mapM_ok (grid as bs) (evalNumpy d) (fun c => (nan, fin 0, fin c.1, c.2)) hall]
    show Except.bind (pickNumpy _) _ = _
    rw [pickNumpy, nanargmax, if_pos]
    · rfl
    · intro v hv
      simp only [List.map_map, List.mem_map] at hv
      obtain ⟨c, _, rfl⟩ := hv
      rfl
  · intro B hB
    obtain ⟨α, as', rfl⟩ := List.exists_cons_of_ne_nil ha0
    obtain ⟨n, bs', rfl⟩ := List.exists_cons_of_ne_nil hb0
    have hn := hb n (by simp)
    have hidx : ∀ y ∈ d, B.idx x (fin 0) (fin 0) y = -2147483648 := by
      intro y hy
      rw [h y hy]
      rcases hB with rfl | rfl | rfl
      · simp [cython, idxCy, div, infOf, sub, toInt]
      · simp [numexpr, idxNe, div, infOf, sub, toInt]
      · simp [blas, idxBl, div, infOf, mul, toInt]
    have hcnt : counts B d (amin d) (fin 0) (fin 0) n 0 o.checks =
        .error (if o.checks then .sysExit else .valueError) := by
      have : countsWith (B.idx x (fin 0) (fin 0)) d n 0 o.checks (B.forgiven d) = none := by
        have hne : ¬ (-2147483648 : Int) = (n : Int) := by omega
        have hmap : d.map (fun x_1 => let b := B.idx x (fin 0) (fin 0) x_1
            if b = (n : Int) then (n : Int) - 1 else b) = d.map fun _ => (-2147483648 : Int) := by
          apply List.map_congr_left
          intro y hy
          simp only [hidx y hy, if_neg hne]
        obtain ⟨y, hy⟩ := List.exists_mem_of_length_pos (by omega : 0 < d.length)
        have hb : bincount (d.map fun _ => (-2147483648 : Int)) 0 = none :=
          bincount_neg _ 0 (-2147483648) (List.mem_map.2 ⟨y, hy, rfl⟩) (by norm_num)
        rw [countsWith, if_neg (by omega), hmap]
        simp only [hb]
        split_ifs with h1 h2
        · exfalso
          have : (d.map fun _ => (-2147483648 : Int)).countP (fun i => decide (i < 0)) = d.length := by
            rw [List.countP_map, List.countP_eq_length.2]
            intro _ _; rfl
          rw [this] at h2
          omega
        · rfl
        · rfl
      rw [counts, equal_min h0 h, this]
    rw [likelihoodB, front_map hl, customWidth, hw]
    show Except.bind (searchLoop _ _ _) _ = _
    have : searchLoop (fin w, B.init, nan) (combos3 (α :: as') (n :: bs') [0]) (evalB B o d) =
        .error (if o.checks then .sysExit else .valueError) := by
      rw [searchLoop]
      have hcons : ∃ rest, combos3 (α :: as') (n :: bs') [0] = (α, n, 0) :: rest := by
        simp [combos3]
      obtain ⟨rest, hrest⟩ := hcons
      rw [hrest, List.foldlM_cons]
      simp only [evalB, equal_width h0 h hn, hcnt]
      rfl
    rw [this]; rfl
  · rw [likelihoodIter, front_map hl, customWidth, hw]
    show ∃ r, Except.bind (searchLoop _ (grid as bs) _) _ = _ ∧ _
    rw [searchLoop_nan _ (grid as bs) _ (fun c => (fin 0, fin c.1, c.2)) hall]
    show ∃ r, finishNumpy o d (fin w, fin 1, 1) = _ ∧ _
    have hf : (d.map some).filterMap id = d := by simp
    have hi : ⌊(x - (x - 1 / 2)) * (((1 : ℕ) : ℝ) / (x + 1 / 2 - (x - 1 / 2)))⌋ = 0 := by
      rw [Int.floor_eq_iff]; norm_num
    have hp1 : npHistogram (d.map some) 1 = .ok ([d.length], [x - 1 / 2, x + 1 / 2]) := by
      rw [npHistogram, if_neg (by simp)]
      have hc : (d.map fun y => (if ⌊(y - (x - 1 / 2)) * (((1 : ℕ) : ℝ) / (x + 1 / 2 - (x - 1 / 2)))⌋ =
          ((1 : Nat) : Int) then ((1 : Nat) : Int) - 1
          else ⌊(y - (x - 1 / 2)) * (((1 : ℕ) : ℝ) / (x + 1 / 2 - (x - 1 / 2)))⌋)).count ((0 : Nat) : Int) =
          d.length := by
        rw [List.count_eq_length.2, List.length_map]
        intro b hb
        obtain ⟨y, hy, rfl⟩ := List.mem_map.1 hb
        rw [h y hy, hi]; rfl
      simp only [hf, equal_min h0 h, equal_max h0 h, if_true]
      have ht : ∀ f : Nat → Nat, tab 1 f = [f 0] := fun f => rfl
      rw [ht, hc, linspace, if_neg (by norm_num)]
      norm_num [tab, List.range_succ]
      ring
    have hN : (d.length : ℝ) ≠ 0 := by exact_mod_cast (by omega : d.length ≠ 0)
    rw [finishNumpy, hv, if_neg (by simp), hp1]
    refine ⟨_, rfl, ?_, rfl, rfl⟩
    show some (normalise o [d.length] d.length (fin w)) = _
    rw [normalise, hp, if_pos rfl]
    simp only [List.map_cons, List.map_nil]
    rw [div_fin hN, div_self hN]

end equal

/-- The hypotheses of `C146_equal_wrong` are met by two equal points and the default options. -/
example : likelihoodNumpy (some [some 3, some 3]) (some [2]) (some [2, 3]) Opts.default = .error .valueError :=
  (C146_equal_wrong (d := [3, 3]) (x := 3) (bs := [2, 3]) (as := [2]) (o := Opts.default) (w := 1) (t := [])
    (by simp) (by simp) (by simp) (by simp) (by simp) rfl rfl rfl).1

end Verif.Jacky
