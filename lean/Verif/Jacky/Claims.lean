import Verif.Jacky.Auto
import Mathlib.Tactic.Linarith
import Mathlib.Tactic.NormNum
/-!
# C140–C142, C144: agreement, printing, missing values, phases
-/
namespace Verif.Jacky
open Verif.Hist Verif.Hist.Spec X Spec
open Classical

variable {data : List (Option ℝ)} {mn mx : ℝ} {as : List ℝ} {bs : List Nat} {o : Opts}

theorem isHist_unique {d : List ℝ} {n : Nat} {p q : Bool} {r r' : Ret} (h : IsHist d mn mx n p q r)
    (h' : IsHist d mn mx n p q r') (hp : r.params = r'.params) : r = r' := by
  obtain ⟨a1, a2, a3⟩ := h
  obtain ⟨b1, b2, b3⟩ := h'
  cases r; cases r'
  simp only at *
  subst a1 a2 a3 b1 b2 b3 hp
  rfl

theorem best_unique {res res' : M Ret} (h : Best data as bs o mn mx res) (h' : Best data as bs o mn mx res') :
    res = res' := by
  obtain ⟨c, _, r, rfl, h2, h3, h4⟩ := h
  obtain ⟨c', _, r', rfl, h2', h3', h4'⟩ := h'
  have := firstMax_unique h4 h4'
  subst this
  rw [isHist_unique h2 h2' (h3.trans h3'.symm)]

/-- C141: numpy, iterator, numexpr and blas return the same histogram on ordinary input.  Missing: cython
(`C141_cython_wrong`). -/
theorem C141_agree_partial (hr : Range (numbers data) mn mx) (hu : Usable as bs o) :
    likelihoodIter (some data) (some as) (some bs) o = likelihoodNumpy (some data) (some as) (some bs) o ∧
    likelihoodB numexpr (some data) (some as) (some bs) [0] o =
      likelihoodNumpy (some data) (some as) (some bs) o ∧
    likelihoodB blas (some data) (some as) (some bs) [0] o =
      likelihoodNumpy (some data) (some as) (some bs) o :=
  ⟨best_unique (C141_iterator hr hu) (C141_numpy hr hu), best_unique (C141_numexpr hr hu) (C141_numpy hr hu),
    best_unique (C141_blas hr hu) (C141_numpy hr hu)⟩

/-! ### The cython factor selects another histogram -/

/-- The data set of the counterexample. -/
def exData : List (Option ℝ) := [some 0, some 0, some 1, some 1]

theorem ex_range : Range (numbers exData) 0 1 := by
  refine ⟨by simp [numbers, exData], by simp [numbers, exData], ?_, by norm_num⟩
  intro x hx
  simp only [numbers, exData, List.filterMap_cons, id, List.filterMap_nil, List.mem_cons, List.not_mem_nil,
    or_false] at hx
  rcases hx with rfl | rfl | rfl | rfl <;> norm_num

theorem ex_usable (o : Opts) (h : o.verbose = false) (hc : o.custom ≠ []) : Usable [2] [1, 10] o where
  pos := by simp
  big := ⟨2, by simp, by norm_num⟩
  binsPos := by simp
  nonempty := by simp
  quiet := h
  custom := hc

theorem ex_usable_default : Usable [2] [1, 10] Opts.default := ex_usable _ rfl (by simp [Opts.default])

theorem ex_bin (n i : Nat) (hn : 1 ≤ n) :
    binCount (numbers exData) 0 1 n i = (if i = 0 then 2 else 0) + (if i + 1 = n then 2 else 0) := by
  have hn' : (1 : ℝ) ≤ n := by exact_mod_cast hn
  have hw : (0 : ℝ) < (1 - 0) / n := by rw [sub_zero]; positivity
  have h0 : InEqBin (0 : ℝ) ((1 - 0) / n) n i 0 ↔ i = 0 := by
    constructor
    · rintro ⟨_, h, _⟩
      by_contra hi
      have : (1 : ℝ) ≤ i := by exact_mod_cast Nat.one_le_iff_ne_zero.2 hi
      have : 0 < (i : ℝ) * ((1 - 0) / n) := mul_pos (by linarith) hw
      linarith
    · rintro rfl
      refine ⟨by omega, by simp, Or.inl ?_⟩
      simpa using hw
  have h1 : InEqBin (0 : ℝ) ((1 - 0) / n) n i 1 ↔ i + 1 = n := by
    have hnn : (n : ℝ) ≠ 0 := by linarith
    constructor
    · rintro ⟨hi, _, h | h⟩
      · exfalso
        have h3 : ((i : ℝ) + 1) ≤ n := by exact_mod_cast hi
        have := mul_le_mul_of_nonneg_right h3 hw.le
        have h4 : (n : ℝ) * ((1 - 0) / n) = 1 := by field_simp; ring
        linarith
      · exact h.1
    · rintro h
      refine ⟨by omega, ?_, Or.inr ⟨h, ?_⟩⟩
      · have h3 : (i : ℝ) ≤ n := by exact_mod_cast (by omega : i ≤ n)
        have := mul_le_mul_of_nonneg_right h3 hw.le
        have h4 : (n : ℝ) * ((1 - 0) / n) = 1 := by field_simp; ring
        linarith
      · field_simp; ring
  simp only [binCount, numbers, exData, List.filterMap_cons, id, List.filterMap_nil, List.countP_cons,
    List.countP_nil, decide_eq_true_eq, h0, h1]
  split_ifs <;> rfl

theorem ex_formula (k : ℝ) (n : Nat) (hn : 2 ≤ n) :
    formula (numbers exData) 0 1 k (2, n) = 4 * Real.log (3 / (k * (1 / n))) := by
  rw [formula]
  have : (tab n fun i => (binCount (numbers exData) 0 1 n i : ℝ) *
      Real.log (((binCount (numbers exData) 0 1 n i : ℝ) + 2 - 1) / (k * ((1 - 0) / n)))) =
      tab n fun i => (if i = 0 then 2 * Real.log (3 / (k * (1 / n))) else 0) +
        (fun i => if i = n - 1 then 2 * Real.log (3 / (k * (1 / n))) else 0) i := by
    apply tab_congr
    intro i hi
    rw [ex_bin n i (by omega)]
    by_cases h1 : i = 0
    · have h2 : ¬ i + 1 = n := by omega
      have h3 : ¬ i = n - 1 := by omega
      simp only [if_pos h1, if_neg h2, if_neg h3]; norm_num
    · by_cases h2 : i + 1 = n
      · have h3 : i = n - 1 := by omega
        simp only [if_neg h1, if_pos h2, if_pos h3]; norm_num
      · have h3 : ¬ i = n - 1 := by omega
        simp only [if_neg h1, if_neg h2, if_neg h3]; norm_num
  show (tab n _).sum = _
  rw [this, sum_tab_add, sum_tab_indicator n 0 (by omega) (fun _ => _),
    sum_tab_indicator n (n - 1) (by omega) (fun _ => _)]
  ring

theorem ex_formula_one (k : ℝ) : formula (numbers exData) 0 1 k (2, 1) = 4 * Real.log (5 / k) := by
  rw [formula]
  show (tab 1 _).sum = _
  have := ex_bin 1 0 le_rfl
  simp only [tab, List.range_one, List.map_cons, List.map_nil, List.sum_cons, List.sum_nil, this]
  norm_num

theorem firstMax_last {A : Type} {a b : A} {L : A → Option EReal} {x y : ℝ} (ha : L a = some (x : EReal))
    (hb : L b = some (y : EReal)) (h : x < y) {c : A} (hf : FirstMax [a, b] L c) : c = b := by
  obtain ⟨pre, post, v, h1, h2, h3, h4⟩ := hf
  match pre, h1 with
  | [], h1 =>
    simp only [List.nil_append, List.cons.injEq] at h1
    obtain ⟨rfl, rfl⟩ := h1
    have := h4 b (by simp) _ hb
    rw [ha] at h2; cases h2
    exact absurd (EReal.coe_le_coe_iff.1 this) (not_le.2 h)
  | [_], h1 => simp only [List.cons_append, List.nil_append, List.cons.injEq] at h1; exact h1.2.1.symm
  | _ :: _ :: _, h1 => simp at h1

theorem firstMax_head {A : Type} {a b : A} {L : A → Option EReal} {x y : ℝ} (ha : L a = some (x : EReal))
    (hb : L b = some (y : EReal)) (h : y ≤ x) {c : A} (hf : FirstMax [a, b] L c) : c = a := by
  obtain ⟨pre, post, v, h1, h2, h3, h4⟩ := hf
  match pre, h1 with
  | [], h1 => simp only [List.nil_append, List.cons.injEq] at h1; exact h1.1.symm
  | [_], h1 =>
    simp only [List.cons_append, List.nil_append, List.cons.injEq] at h1
    obtain ⟨rfl, rfl, _⟩ := h1
    have := h3 a (by simp) _ ha
    rw [hb] at h2; cases h2
    exact absurd (EReal.coe_lt_coe_iff.1 this) (not_lt.2 h)
  | _ :: _ :: _, h1 => simp at h1

/-- C141 (what fails): cython uses a conversion factor without the number of data points; for the data
`0, 0, 1, 1`, constant 2 and 1 or 10 bins it returns one bin where the other versions return ten. -/
theorem C141_cython_wrong (o : Opts) (h : o.verbose = false) (hc : o.custom ≠ []) :
    (∃ r, likelihoodNumpy (some exData) (some [2]) (some [1, 10]) o = .ok r ∧
      ∃ hh, r.hist = some hh ∧ hh.length = 10) ∧
    (∃ r, likelihoodB cython (some exData) (some [2]) (some [1, 10]) [0] o = .ok r ∧
      ∃ hh, r.hist = some hh ∧ hh.length = 1) := by
  have hu := ex_usable o h hc
  have hlen : (numbers exData).length = 4 := rfl
  have hv : ∀ (k : ℝ × Nat → ℝ) (n : Nat), toL (val (numbers exData) 0 1 k (2, n)) =
      some ((formula (numbers exData) 0 1 (k (2, n)) (2, n) : ℝ) : EReal) := by
    intro k n
    rw [val, if_pos (Or.inl (by norm_num))]; rfl
  constructor
  · obtain ⟨c, hcg, r, h1, h2, _, h4⟩ := C141_numpy (mn := 0) (mx := 1) ex_range hu
    have h4' : FirstMax [((2 : ℝ), 1), (2, 10)] (score (numbers exData) 0 1) c := h4
    have hs : ∀ n, 1 ≤ n → score (numbers exData) 0 1 (2, n) =
        some ((formula (numbers exData) 0 1 (convNumpy 4 n 2) (2, n) : ℝ) : EReal) := by
      intro n hn
      rw [← val_score ex_range hn, hlen]; exact hv _ n
    have : c = (2, 10) := by
      refine firstMax_last (hs 1 le_rfl) (hs 10 (by norm_num)) ?_ h4'
      rw [ex_formula_one, ex_formula _ 10 (by norm_num)]
      have e1 : (5 : ℝ) / convNumpy 4 1 2 = 1 := by rw [convNumpy]; norm_num
      rw [e1, Real.log_one, mul_zero]
      apply mul_pos (by norm_num) (Real.log_pos _)
      rw [convNumpy]; norm_num
    subst this
    exact ⟨r, h1, _, h2.1, by simp [tab]⟩
  · obtain ⟨c, hcg, r, h1, h2, _, h4⟩ := likelihoodB_ok (mn := 0) (mx := 1) ex_range hu cython kCython
      (Or.inl ⟨rfl, rfl⟩)
    have h4' : FirstMax [((2 : ℝ), 1), (2, 10)] (fun c => toL (val (numbers exData) 0 1 kCython c)) c := h4
    have : c = (2, 1) := by
      refine firstMax_head (L := fun c => toL (val (numbers exData) 0 1 kCython c)) (a := (2, 1)) (b := (2, 10))
        (hv kCython 1) (hv kCython 10) ?_ h4'
      rw [ex_formula_one, ex_formula _ 10 (by norm_num)]
      apply mul_le_mul_of_nonneg_left _ (by norm_num)
      have e1 : kCython (2, 1) = 2 := by rw [kCython, convCythonNoLoop]; norm_num
      have e2 : kCython (2, 10) = 29 := by rw [kCython, convCythonNoLoop]; norm_num
      rw [e1, e2]
      apply Real.log_le_log <;> norm_num
    subst this
    exact ⟨r, h1, _, h2.1, by simp [tab]⟩

example : Range (numbers exData) 0 1 ∧ Usable [2] [1, 10] Opts.default := ⟨ex_range, ex_usable_default⟩

/-! ### C142: printing -/

/-- All five entry points with phase 0, as functions of the data and options. -/
def IsEntry (E : Option (List (Option ℝ)) → Option (List ℝ) → Option (List Nat) → Opts → M Ret) : Prop :=
  E = likelihoodNumpy ∨ E = likelihoodIter ∨
  ∃ B, (B = cython ∨ B = numexpr ∨ B = blas) ∧ E = fun d a b o => likelihoodB B d a b [0] o

/-- The same options with another `verbose`. -/
def loud (o : Opts) : Opts := { o with verbose := true }

/-- C142 (what fails): on ordinary input every entry point with equal bins raises `TypeError` as soon as
`verbose` is set, although the silent call succeeds. -/
theorem C142_verbose_wrong (E) (hE : IsEntry E) (hr : Range (numbers data) mn mx) (hu : Usable as bs o) :
    (∃ r, E (some data) (some as) (some bs) o = .ok r) ∧
    E (some data) (some as) (some bs) (loud o) = .error .typeError := by
  have hev : ∀ c, evalNumpy (numbers data) c = evalNumpy (numbers data) c := fun _ => rfl
  have hg : ∀ c ∈ grid as bs, evalNumpy (numbers data) c =
      .ok (val (numbers data) mn mx (fun c => convNumpy (numbers data).length c.2 c.1) c,
      fin ((mx - mn) / c.2), fin c.1, c.2) := fun c hc => evalNumpy_ok hr hu hc
  obtain ⟨w0, hw0⟩ := customWidth_ok hu
  have hw0' : customWidth (loud o) = .ok w0 := hw0
  rcases hE with rfl | rfl | ⟨B, hB, rfl⟩
  · obtain ⟨c, hc, r, h1, _, _, _⟩ := C141_numpy hr hu
    refine ⟨⟨r, h1⟩, ?_⟩
    rw [likelihoodNumpy, front_ok hr] at h1 ⊢
    cases hm : Except.bind ((combos2 as bs).mapM (evalNumpy (numbers data))) pickNumpy with
    | ok s =>
      cases hm1 : (combos2 as bs).mapM (evalNumpy (numbers data)) with
      | error e => rw [hm1] at hm; cases hm
      | ok rs =>
        rw [hm1] at hm
        show Except.bind (pickNumpy rs) _ = _
        rw [show pickNumpy rs = Except.ok s from hm]
        rfl
    | error e =>
      exfalso
      cases hm1 : (combos2 as bs).mapM (evalNumpy (numbers data)) with
      | error e => rw [hm1] at h1; cases h1
      | ok rs =>
        rw [hm1] at hm h1
        rw [show Except.bind (Except.ok rs) (fun rs => (pickNumpy rs).bind (finishNumpy o (numbers data)))
          = Except.bind (pickNumpy rs) (finishNumpy o (numbers data)) from rfl,
          show pickNumpy rs = Except.error e from hm] at h1
        cases h1
  · obtain ⟨c, hc, r, h1, _, _, _⟩ := C141_iterator hr hu
    refine ⟨⟨r, h1⟩, ?_⟩
    obtain ⟨c, hc, hf, hs⟩ := searchLoop_spec (fin w0, fin 1, 1) (grid as bs) (evalNumpy (numbers data))
      _ (fun c => (fin ((mx - mn) / c.2), fin c.1, c.2)) hg
      (exists_val (d := numbers data) (mn := mn) (mx := mx) hu _)
    rw [likelihoodIter, front_ok hr, hw0']
    show Except.bind (searchLoop _ (grid as bs) _) _ = _
    rw [hs]
    rfl
  · have hBk : ∃ k, (B = cython ∧ k = kCython) ∨
      ((B = numexpr ∨ B = blas) ∧ k = fun c => convNumpy (numbers data).length c.2 c.1) := by
      rcases hB with h | h | h
      · exact ⟨kCython, Or.inl ⟨h, rfl⟩⟩
      · exact ⟨_, Or.inr ⟨Or.inl h, rfl⟩⟩
      · exact ⟨_, Or.inr ⟨Or.inr h, rfl⟩⟩
    obtain ⟨k, hk⟩ := hBk
    obtain ⟨c, hc, r, h1, _, _, _⟩ := likelihoodB_ok hr hu B k hk
    refine ⟨⟨r, h1⟩, ?_⟩
    obtain ⟨c0, hc0, hv0⟩ := exists_val (d := numbers data) (mn := mn) (mx := mx) hu k
    obtain ⟨c3, hc3, hf3, hs⟩ := searchLoop_spec (fin w0, B.init, nan) (combos3 as bs [0])
      (evalB B (loud o) (numbers data)) (fun c => val (numbers data) mn mx k (c.1, c.2.1))
      (fun c => (fin ((mx - mn) / c.2.1), (fin c.1, c.2.1), fin 0))
      (fun c hc => by
        rw [combos3_zero] at hc
        obtain ⟨c', hc', rfl⟩ := List.mem_map.1 hc
        exact evalB_ok hr hu B k hk hc')
      (by
        rw [combos3_zero]
        exact ⟨_, List.mem_map.2 ⟨c0, hc0, rfl⟩, hv0⟩)
    show likelihoodB B _ _ _ _ _ = _
    rw [likelihoodB, front_ok hr, hw0']
    show Except.bind (searchLoop _ _ _) _ = _
    rw [hs]
    rfl

/-- C142: with no data, a single point or only NaN, `verbose` does not change the result. -/
theorem C142_verbose_early_partial (E) (hE : IsEntry E) (a : Option (List ℝ)) (b : Option (List Nat))
    (h : data.length ≤ 1 ∨ ∀ x ∈ data, x = none) :
    E (some data) a b (loud o) = E (some data) a b o := by
  have key : ∀ r1 r2, front (some data) a b (loud o) r1 = front (some data) a b o r2 := by
    intro r1 r2
    cases a with
    | none => rfl
    | some a =>
      cases b with
      | none => rfl
      | some b =>
        simp only [front]
        by_cases h0 : data.length = 0
        · rw [if_pos h0, if_pos h0]
        · rw [if_neg h0, if_neg h0]
          by_cases h1 : data.length = 1
          · rw [if_pos h1, if_pos h1]; rfl
          · have hn : ∀ x ∈ data, x = none := by
              rcases h with h | h
              · omega
              · exact h
            rw [if_neg h1, if_neg h1, if_pos hn, if_pos hn]
  rcases hE with rfl | rfl | ⟨B, _, rfl⟩
  · exact key _ _
  · exact key _ _
  · exact key _ _

/-! ### C144: missing values -/

/-- C144: with at least two numbers among the data, NaNs change nothing: every entry point (any options,
any phases) returns what it returns for the data without them. -/
theorem C144_nan_ignored_partial (a : Option (List ℝ)) (b : Option (List Nat)) (phases : List ℝ)
    (h : 2 ≤ (numbers data).length) :
    likelihoodNumpy (some data) a b o = likelihoodNumpy (some ((numbers data).map some)) a b o ∧
    likelihoodIter (some data) a b o = likelihoodIter (some ((numbers data).map some)) a b o ∧
    ∀ B, likelihoodB B (some data) a b phases o =
      likelihoodB B (some ((numbers data).map some)) a b phases o := by
  have key : ∀ r, front (some data) a b o r = front (some ((numbers data).map some)) a b o r := by
    intro r
    cases a with
    | none => rfl
    | some a =>
      cases b with
      | none => rfl
      | some b =>
        have hle : (numbers data).length ≤ data.length := List.length_filterMap_le _ _
        obtain ⟨x, hx⟩ := List.exists_mem_of_length_pos (by omega : 0 < (numbers data).length)
        have hx' : some x ∈ data := by
          simp only [numbers, List.mem_filterMap, id] at hx
          obtain ⟨y, hy, rfl⟩ := hx
          exact hy
        simp only [front, List.length_map]
        have e1 : ¬ data.length = 0 := by omega
        have e2 : ¬ data.length = 1 := by omega
        have e3 : ¬ (numbers data).length = 0 := by omega
        have e4 : ¬ (numbers data).length = 1 := by omega
        have e5 : ¬ ∀ x ∈ data, x = none := fun hall => by cases hall _ hx'
        have e6 : ¬ ∀ x ∈ (numbers data).map some, x = none :=
          fun hall => by cases hall (some x) (List.mem_map.2 ⟨x, hx, rfl⟩)
        rw [if_neg e1, if_neg e2, if_neg e3, if_neg e4, if_neg e5, if_neg e6]
        congr 1
        simp [valued, numbers]
  exact ⟨key _, key _, fun B => key _⟩

/-- C144 (what fails): one number and a NaN: blas, cython and numexpr raise (two or more bins tried first),
although the number alone gives a histogram; and a NaN alone raises although two NaNs give `None`. -/
theorem C144_one_number_wrong (x : ℝ) (B : Backend) (hB : B = cython ∨ B = numexpr ∨ B = blas) (α : ℝ)
    (n : Nat) (hn : 2 ≤ n) (as : List ℝ) (bs : List Nat) (o : Opts) (hc : o.custom ≠ [])
    (hch : o.checks = false) :
    likelihoodB B (some [some x, none]) (some (α :: as)) (some (n :: bs)) [0] o = .error .valueError ∧
    (∃ r, likelihoodB B (some [some x]) (some (α :: as)) (some (n :: bs)) [0] o = .ok r) ∧
    likelihoodB B (some [none]) (some (α :: as)) (some (n :: bs)) [0] o = .error .valueError ∧
    likelihoodB B (some [none, none]) (some (α :: as)) (some (n :: bs)) [0] o = .ok Ret.none := by
  obtain ⟨w, t, hw⟩ := List.exists_cons_of_ne_nil hc
  refine ⟨?_, ?_, ?_, ?_⟩
  · have hm : amin [x] = x := by simp [amin]
    have hM : amax [x] = x := by simp [amax]
    have hn0 : (n : ℝ) ≠ 0 := by exact_mod_cast (by omega : n ≠ 0)
    have hbw : binWidth (ptp [x]) n = fin 0 := by
      rw [binWidth, ptp, hm, hM, div_fin hn0]; simp
    have hidx : B.idx x (fin 0) (fin 0) x = -2147483648 := by
      rcases hB with rfl | rfl | rfl
      · simp [cython, idxCy, div, infOf, sub, toInt]
      · simp [numexpr, idxNe, div, infOf, sub, toInt]
      · simp [blas, idxBl, div, infOf, mul, toInt]
    have hcnt : counts B [x] (amin [x]) (fin 0) (fin 0) n 0 o.checks = .error .valueError := by
      have : countsWith (B.idx x (fin 0) (fin 0)) [x] n 0 false (B.forgiven [x]) = none := by
        have hne : ¬ (-2147483648 : Int) = (n : Int) := by omega
        rw [countsWith, if_neg (by omega)]
        simp only [List.map_cons, List.map_nil, hidx, if_neg hne]
        rfl
      rw [counts, hm, hch, this]
      rfl
    simp only [likelihoodB, front, List.length_cons, List.length_nil]
    rw [if_neg (by norm_num), if_neg (by norm_num), if_neg (by simp)]
    have hv : valued [some x, none] = [x] := rfl
    rw [customWidth, hw, hv]
    show Except.bind (searchLoop _ _ _) _ = _
    have : searchLoop (fin w, B.init, nan) (combos3 (α :: as) (n :: bs) [0]) (evalB B o [x]) =
        .error .valueError := by
      rw [searchLoop]
      have hcons : ∃ rest, combos3 (α :: as) (n :: bs) [0] = (α, n, 0) :: rest := by
        simp [combos3]
      obtain ⟨rest, hrest⟩ := hcons
      rw [hrest, List.foldlM_cons]
      simp only [evalB, hbw, hcnt]
      rfl
    rw [this]; rfl
  · simp only [likelihoodB, front, List.length_cons, List.length_nil]
    rw [if_neg (by norm_num), if_pos (by norm_num), hw]
    have hp : ∃ p, npHistogram [some x] 1 = .ok p := by
      rw [npHistogram, if_neg (by simp)]; exact ⟨_, rfl⟩
    obtain ⟨p, hp⟩ := hp
    exact ⟨_, by rw [hp]; rfl⟩
  · simp only [likelihoodB, front, List.length_cons, List.length_nil]
    rw [if_neg (by norm_num), if_pos (by norm_num), hw]
    simp only [npHistogram]
    rw [if_pos (Or.inl (by simp))]
    rfl
  · simp only [likelihoodB, front, List.length_cons, List.length_nil]
    rw [if_neg (by norm_num), if_neg (by norm_num), if_pos (by simp)]

end Verif.Jacky
