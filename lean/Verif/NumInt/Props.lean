import Verif.NumInt.Lemmas3
import Mathlib.Tactic.NormNum
import Mathlib.Data.Rat.Defs
/-!
# Properties C01–C07: the numerical integrator

`cniIntegrate (mapperAfter hist) method es f x threads parallel` is the Python-level call
`cni.integrate(method, es, f, x, threads, parallel)` made after arbitrary earlier calls `hist`;
`.1` is its result (`none` = undefined behaviour).  `tab n f` is the array `f 0, …, f (n-1)`.
-/
namespace Verif.NumInt
open Finset Spec

/-! ## C01 -/

/-- C01: 'trapz' on an unequally spaced grid returns the sum of the trapezoid areas. -/
theorem C01_trapz_sum {K : Type} [Field K] (hist : List String) (n : Nat) (x f : Nat → K)
    (t : Int) (p : Bool) :
    (cniIntegrate (mapperAfter hist) "trapz" false (tab n f) (tab n x) t p).1
      = some (trapSum n x f) := by
  rw [cni_eq, if_neg (by decide), trapz_tab_uneven]

/-- C01: affine integrands are integrated exactly on every grid. -/
theorem C01_trapz_affine (hist : List String) (n : Nat) (x : Nat → ℝ) (a b : ℝ)
    (t : Int) (p : Bool) :
    (cniIntegrate (mapperAfter hist) "trapz" false (tab n (fun i => a * x i + b)) (tab n x) t p).1
      = some (∫ s in (x 0)..(x (n - 1)), (a * s + b)) := by
  rw [C01_trapz_sum, trapSum_affine]

/-- C01: cutting the grid at sample `k` splits the integral into the sum of the two parts. -/
theorem C01_trapz_cut {K : Type} [Field K] (hist : List String) (n k : Nat) (hk : k < n)
    (x f : Nat → K) (t : Int) (p : Bool) :
    ∃ r1 r2,
      (cniIntegrate (mapperAfter hist) "trapz" false (tab (k+1) f) (tab (k+1) x) t p).1 = some r1 ∧
      (cniIntegrate (mapperAfter hist) "trapz" false (tab (n-k) (fun i => f (k+i)))
        (tab (n-k) (fun i => x (k+i))) t p).1 = some r2 ∧
      (cniIntegrate (mapperAfter hist) "trapz" false (tab n f) (tab n x) t p).1
        = some (r1 + r2) := by
  refine ⟨_, _, C01_trapz_sum hist _ x f t p, C01_trapz_sum hist _ _ _ t p, ?_⟩
  rw [C01_trapz_sum]
  congr 1
  unfold trapSum
  have e : n - 1 = (k + 1 - 1) + (n - k - 1) := by omega
  rw [e, sum_range_add]
  rfl

/-- Non-vacuity for C01: three uneven samples of a non-affine integrand over ℚ. -/
example : (cniIntegrate (mapperAfter ["foo"]) "trapz" false
    (tab 3 (fun i => ((i * i : Nat) : ℚ))) (tab 3 (fun i => (([0, 1, 4].getD i 0 : Nat) : ℚ))) 4 true).1
    = some 8 := by
  rw [C01_trapz_sum]; simp [trapSum, sum_range_succ]; norm_num

/-! ## C02 -/

/-- C02: on an equally spaced grid the shortcut returns the same value for every integrand. -/
theorem C02_shortcut_sound {K : Type} [Field K] [NeZero (2 : K)] (hist : List String) (n : Nat)
    (hn : 2 ≤ n) (x f : Nat → K) (hx : Equispaced n x) (t : Int) (p : Bool) :
    (cniIntegrate (mapperAfter hist) "trapz" true (tab n f) (tab n x) t p).1 =
    (cniIntegrate (mapperAfter hist) "trapz" false (tab n f) (tab n x) t p).1 := by
  rw [C01_trapz_sum, cni_eq, if_neg (by decide), trapz_tab_even _ n hn, trapSum_equi n hn x f hx]

/-- C02 (converse): on every grid that is not equally spaced the flag changes some integral. -/
theorem C02_shortcut_only_equispaced {K : Type} [Field K] [NeZero (2 : K)] (hist : List String)
    (n : Nat) (hn : 2 ≤ n) (x : Nat → K) (hx : ¬ Equispaced n x) (t : Int) (p : Bool) :
    ∃ f : Nat → K,
      (cniIntegrate (mapperAfter hist) "trapz" true (tab n f) (tab n x) t p).1 ≠
      (cniIntegrate (mapperAfter hist) "trapz" false (tab n f) (tab n x) t p).1 := by
  classical
  have h2 : (2 : K) ≠ 0 := NeZero.ne 2
  unfold Equispaced at hx
  push Not at hx
  -- the first uneven interval
  let P : Nat → Prop := fun k => k + 1 < n ∧ x (k + 1) - x k ≠ x 1 - x 0
  have hP : ∃ k, P k := hx
  obtain ⟨hk1, hk2⟩ := Nat.find_spec hP
  have hmin := fun m (hm : m < Nat.find hP) => Nat.find_min hP hm
  generalize Nat.find hP = k at hk1 hk2 hmin
  obtain ⟨j, rfl⟩ : ∃ j, k = j + 1 := by
    cases k with
    | zero => exact absurd rfl hk2
    | succ j => exact ⟨j, rfl⟩
  have hj : x (j + 1) - x j = x 1 - x 0 := by
    by_contra hc
    exact hmin j (by omega) ⟨by omega, hc⟩
  refine ⟨fun i => if i = j + 1 then 1 else 0, ?_⟩
  rw [C01_trapz_sum, cni_eq, if_neg (by decide), trapz_tab_even _ n hn]
  intro hc
  have hc := Option.some.inj hc
  have e1 : (∑ k ∈ range (n - 2), if k + 1 = j + 1 then (1 : K) else 0) = 1 := by
    have : ∀ k, (if k + 1 = j + 1 then (1 : K) else 0) = if k = j then 1 else 0 := by
      intro k; simp
    simp only [this, sum_ite_eq', mem_range]
    rw [if_pos (by omega)]
  have e2 : trapSum n x (fun i => if i = j + 1 then 1 else 0)
      = (x (j+2) - x (j+1)) / 2 + (x (j+1) - x j) / 2 := by
    unfold trapSum
    have : ∀ i, (x (i + 1) - x i) * ((if i = j + 1 then (1 : K) else 0) + if i + 1 = j + 1 then 1 else 0) / 2
      = (if i = j + 1 then (x (i + 1) - x i) / 2 else 0) +
        (if i = j then (x (i + 1) - x i) / 2 else 0) := by
      intro i
      by_cases h1 : i = j + 1
      · subst h1; simp
      · by_cases h3 : i = j
        · subst h3; simp
        · simp [h1, h3]
    simp only [this, sum_add_distrib, sum_ite_eq', mem_range]
    rw [if_pos (by omega), if_pos (by omega)]
  have i1 : (0 : Nat) ≠ j + 1 := by omega
  have i2 : n - 1 ≠ j + 1 := by omega
  simp only [e1, e2, hj, if_neg i1, if_neg i2] at hc
  apply hk2
  field_simp at hc
  linear_combination -hc

/-- Non-vacuity: the equally spaced grid 0,1,2 and the uneven grid 0,1,4. -/
example : Equispaced 3 (fun i => (i : ℚ)) ∧ ¬ Equispaced 3 (fun i => ((i * i : Nat) : ℚ)) := by
  refine ⟨fun k _ => by push_cast; ring, fun h => ?_⟩
  have := h 1 (by norm_num)
  norm_num at this

/-! ## C03 -/

/-- C03: 'simpson' on an odd number `2m+1 ≥ 3` of equally spaced samples integrates every
polynomial of degree at most three exactly. -/
theorem C03_simpson_cubic (hist : List String) (m : Nat) (hm : 1 ≤ m) (x0 h : ℝ)
    (q : Polynomial ℝ) (hq : q.natDegree ≤ 3) (t : Int) (p : Bool) :
    (cniIntegrate (mapperAfter hist) "simpson" true
      (tab (2*m+1) (fun i => q.eval (x0 + i * h))) (tab (2*m+1) (fun i => x0 + i * h)) t p).1
      = some (∫ s in x0..(x0 + (2*m : Nat) * h), q.eval s) := by
  rw [cni_eq, if_pos rfl, simpson_tab _ m hm, integral_poly3 q hq]
  congr 1
  obtain ⟨m', rfl⟩ : ∃ m', m = m' + 1 := ⟨m - 1, by omega⟩
  have hp := simpson_panels (fun i : Nat => q.eval (x0 + i * h)) m'
  simp only [Nat.add_sub_cancel] at hp ⊢
  rw [hp]
  simp only [eval_cubic q hq]
  have hc := simpson_cubic (q.coeff 0) (q.coeff 1) (q.coeff 2) (q.coeff 3) x0 h (m' + 1)
  have hh : (x0 + ((1 : Nat) : ℝ) * h - (x0 + ((0 : Nat) : ℝ) * h)) = h := by push_cast; ring
  rw [hh]
  exact hc

/-- Non-vacuity: five samples of x³ on [0,4]. -/
example : (1 ≤ 2) ∧ ((Polynomial.X : Polynomial ℝ) ^ 3).natDegree ≤ 3 :=
  ⟨by norm_num, by simp⟩

/-! ## C04 (no arithmetic laws assumed: bit-exact) -/
section
variable {α : Type} [Add α] [Sub α] [Mul α] [Div α] [NatCast α]

/-- C04: results do not depend on the history of method names used before. -/
theorem C04_history_independent (hist : List String) (s : String) (es : Bool) (f x : List α)
    (t : Int) (p : Bool) :
    (cniIntegrate (mapperAfter hist) s es f x t p).1 = (cniIntegrate mapper0 s es f x t p).1 := by
  have := cni_eq [] s es f x t p
  rw [cni_eq]; exact this.symm

/-- C04: every method name other than 'simpson' behaves as 'trapz'. -/
theorem C04_unknown_is_trapz (hist : List String) (s : String) (hs : s ≠ "simpson") (es : Bool)
    (f x : List α) (t : Int) (p : Bool) :
    (cniIntegrate (mapperAfter hist) s es f x t p).1 =
      (cniIntegrate mapper0 "trapz" es f x t p).1 := by
  have := cni_eq [] "trapz" es f x t p
  rw [cni_eq, if_neg hs]
  refine Eq.trans ?_ this.symm
  rw [if_neg (by decide)]
  exact trapz_congr _ _ rfl rfl rfl rfl

/-- C04: 'simpson' without equal spacing, or with an even number of samples, behaves as 'trapz'. -/
theorem C04_simpson_fallback (hist : List String) (es : Bool) (f x : List α)
    (h : es = false ∨ f.length % 2 = 0) (t : Int) (p : Bool) :
    (cniIntegrate (mapperAfter hist) "simpson" es f x t p).1 =
      (cniIntegrate mapper0 "trapz" es f x t p).1 := by
  have := cni_eq [] "trapz" es f x t p
  rw [cni_eq, if_pos rfl]
  refine Eq.trans ?_ this.symm
  rw [if_neg (by decide), simpson_fallback]
  · exact trapz_congr _ _ rfl rfl rfl rfl
  · rcases h with h | h
    · left; exact h
    · right; exact ⟨f.length, rfl, h⟩

/-- Non-vacuity: a history with an unknown name really changes the global table. -/
example : mapperAfter ["romberg"] ≠ mapper0 ∧ "romberg" ≠ "simpson" := by decide

/-! ## C05 -/

/-- C05: exact condition under which a call has no out-of-bounds read. -/
theorem C05_memory_safe_iff (hist : List String) (s : String) (es : Bool) (f x : List α)
    (t : Int) (p : Bool) :
    (cniIntegrate (mapperAfter hist) s es f x t p).1.isSome = true ↔
      if es then 2 ≤ x.length ∧ 1 ≤ f.length ∧ (s = "simpson" → f.length ≠ 1)
      else f.length ≤ 1 ∨ f.length ≤ x.length := by
  have hrd : ∀ (l : List α) (i : Int), 0 ≤ i → i < l.length → ∃ v, rd l i = some v := by
    intro l i h0 h1
    exact Option.isSome_iff_exists.1 ((rd_isSome l i).2 ⟨h0, h1⟩)
  -- the equal-spacing trapezoid
  have hT : ∀ s', (trapz (obj s' true f x t p)).isSome = true ↔ 2 ≤ x.length ∧ 1 ≤ f.length := by
    intro s'
    constructor
    · intro h
      by_contra hc
      have : trapz (obj s' true f x t p) = none := by
        unfold trapz obj
        simp only [if_true]
        by_cases h1 : 2 ≤ x.length
        · have hf : f.length = 0 := by
            by_contra h2; exact hc ⟨h1, by omega⟩
          have : rd f 0 = none := (rd_none f 0).2 (by omega)
          rw [this]
          cases rd x 1 <;> cases rd x 0 <;> rfl
        · have : rd x 1 = none := (rd_none x 1).2 (by omega)
          rw [this]; rfl
      rw [this] at h; simp at h
    · rintro ⟨h1, h2⟩
      obtain ⟨v1, hv1⟩ := hrd x 1 (by omega) (by omega)
      obtain ⟨v0, hv0⟩ := hrd x 0 (by omega) (by omega)
      obtain ⟨f0, hf0⟩ := hrd f 0 (by omega) (by omega)
      obtain ⟨fn, hfn⟩ := hrd f (f.length - 1) (by omega) (by omega)
      unfold trapz obj
      simp only [if_true, hv1, hv0, hf0, hfn, Option.bind_eq_bind, Option.bind_some]
      rw [forUp_some _ _ _ _ (fun k a => a + f.getD (k+1) f0)]
      · simp
      · intro k hk a
        have : (1 + (k : Int)).toNat = k + 1 := by omega
        have hlt : k + 1 < f.length := by omega
        have hneg : ¬ (1 + (k : Int) < 0) := by omega
        simp [rd, this, hneg, List.getD_eq_getElem?_getD, List.getElem?_eq_getElem hlt]
  rw [cni_eq]
  cases es with
  | true =>
    simp only [if_true]
    by_cases hs : s = "simpson"
    · simp only [hs, if_true, forall_const]
      by_cases hodd : f.length % 2 = 0
      · rw [simpson_fallback _ (Or.inr ⟨f.length, rfl, hodd⟩), hT]
        constructor
        · rintro ⟨a, b⟩; exact ⟨a, b, by omega⟩
        · rintro ⟨a, b, _⟩; exact ⟨a, b⟩
      · obtain ⟨m, hm⟩ : ∃ m, f.length = 2 * m + 1 := ⟨f.length / 2, by omega⟩
        have e1 : (((f.length : Nat) : Int) - 1) = ((2 * m : Nat) : Int) := by omega
        have hmod : ((2 * m : Nat) : Int).tmod 2 = 0 := by
          rw [Int.tmod_eq_emod_of_nonneg (by omega)]; omega
        have hdiv : (((f.length : Nat) : Int)).tdiv 2 = m := by
          rw [Int.tdiv_eq_ediv_of_nonneg (by omega)]; omega
        constructor
        · intro h
          by_contra hc
          have : simpson (obj "simpson" true f x t p) = none := by
            unfold simpson obj
            simp only [if_true, e1, hmod, ne_eq, not_true_eq_false, if_false]
            by_cases h1 : 2 ≤ x.length
            · have hf : m = 0 := by
                by_contra h2; exact hc ⟨h1, by omega, by omega⟩
              subst hf
              have hh : rd f (((2 * 0 : Nat) : Int) - 1) = none := (rd_none f _).2 (by omega)
              have hfe : ∀ (a : α) b, forUp 1 ((0 : Nat) : Int) a b = some a :=
                fun a b => forUp_empty _ _ _ _ (by omega)
              rw [hdiv, hh]
              simp only [hfe]
              cases rd x 1 <;> cases rd x 0 <;> cases rd f 0 <;>
                cases rd f ((2 * 0 : Nat) : Int) <;> rfl
            · have : rd x 1 = none := (rd_none x 1).2 (by omega)
              rw [this]; rfl
          rw [this] at h; simp at h
        · rintro ⟨h1, h2, h3⟩
          obtain ⟨v1, hv1⟩ := hrd x 1 (by omega) (by omega)
          obtain ⟨v0, hv0⟩ := hrd x 0 (by omega) (by omega)
          obtain ⟨f0, hf0⟩ := hrd f 0 (by omega) (by omega)
          obtain ⟨fn, hfn⟩ := hrd f ((2 * m : Nat) : Int) (by omega) (by omega)
          obtain ⟨fl, hfl⟩ := hrd f (((2 * m : Nat) : Int) - 1) (by omega) (by omega)
          unfold simpson obj
          simp only [if_true, e1, hmod, hdiv, ne_eq, not_true_eq_false, if_false, hv1, hv0, hf0,
            hfn, hfl, Option.bind_eq_bind, Option.bind_some]
          rw [forUp_some _ _ _ _ (fun k a => a + (((4 : Nat) : α) * f.getD (2*k+1) f0 +
            ((2 : Nat) : α) * f.getD (2*k+2) f0))]
          · simp
          · intro k hk a
            have ha : (2 * (1 + (k : Int)) - 1).toNat = 2 * k + 1 := by omega
            have hb : (2 * (1 + (k : Int))).toNat = 2 * k + 2 := by omega
            have l1 : 2 * k + 1 < f.length := by omega
            have l2 : 2 * k + 2 < f.length := by omega
            have n1 : ¬ (2 * (1 + (k : Int)) - 1 < 0) := by omega
            have n2 : ¬ (2 * (1 + (k : Int)) < 0) := by omega
            simp only [rd, ha, hb, n1, n2, if_false, List.getD_eq_getElem?_getD,
              List.getElem?_eq_getElem l1, List.getElem?_eq_getElem l2, Option.bind_some,
              Option.getD_some, Option.pure_def]
    · simp only [hs, if_false, hT, false_imp_iff, and_true]
  | false =>
    have hS : (if s = "simpson" then simpson (obj s false f x t p)
        else trapz (obj s false f x t p)) = trapz (obj s false f x t p) := by
      split
      · exact simpson_fallback _ (Or.inl rfl)
      · rfl
    rw [hS]
    unfold trapz obj
    simp only [Bool.false_eq_true, if_false]
    constructor
    · intro h
      by_contra hc
      have hlen : 1 < f.length ∧ x.length < f.length := by omega
      rw [forUp_none _ _ _ _ ((f.length : Int) - 1) (by omega) (by omega)] at h
      · simp at h
      · intro a
        have : rd x ((f.length : Int) - 1) = none := (rd_none x _).2 (by omega)
        rw [this]; rfl
    · rintro (h | h)
      · rw [forUp_empty _ _ _ _ (by omega)]; rfl
      · by_cases h0 : f.length ≤ 1
        · rw [forUp_empty _ _ _ _ (by omega)]; rfl
        obtain ⟨f0, hf0⟩ := hrd f 0 (by omega) (by omega)
        obtain ⟨x0, hx0⟩ := hrd x 0 (by omega) (by omega)
        rw [forUp_some _ _ _ _ (fun k a => a + (f.getD (k+1) f0 + f.getD k f0) / ((2 : Nat) : α) *
          (x.getD (k+1) x0 - x.getD k x0))]
        · rfl
        · intro k hk a
          have ha : (1 + (k : Int)).toNat = k + 1 := by omega
          have hb : (1 + (k : Int) - 1).toNat = k := by omega
          have n1 : ¬ (1 + (k : Int) < 0) := by omega
          have n2 : ¬ (1 + (k : Int) - 1 < 0) := by omega
          have l1 : k < f.length := by omega
          have l2 : k + 1 < f.length := by omega
          have l3 : k < x.length := by omega
          have l4 : k + 1 < x.length := by omega
          simp only [rd, ha, hb, n1, n2, if_false, List.getD_eq_getElem?_getD,
            List.getElem?_eq_getElem l1, List.getElem?_eq_getElem l2,
            List.getElem?_eq_getElem l3, List.getElem?_eq_getElem l4,
            Option.bind_eq_bind, Option.bind_some, Option.getD_some, Option.pure_def]

/-! ## C06 -/

/-- C06: flag and thread count never influence the result (bit-identical). -/
theorem C06_threads_irrelevant (hist : List String) (s : String) (es : Bool) (f x : List α)
    (t t' : Int) (p p' : Bool) :
    (cniIntegrate (mapperAfter hist) s es f x t p).1 =
      (cniIntegrate (mapperAfter hist) s es f x t' p').1 := by
  rw [cni_eq, cni_eq]
  split
  · exact simpson_congr _ _ rfl rfl rfl rfl
  · exact trapz_congr _ _ rfl rfl rfl rfl

end

/-- Non-vacuity for C05/C06: a safe call and an unsafe one (single sample, equal spacing). -/
example : (cniIntegrate mapper0 "simpson" true [(1 : ℚ), 2, 3] [0, 1, 2] 4 false).1.isSome = true ∧
    (cniIntegrate mapper0 "simpson" true [(1 : ℚ)] [0, 1] 4 false).1 = none := by
  refine ⟨(C05_memory_safe_iff [] _ _ _ _ _ _).2 (by simp), ?_⟩
  have := (C05_memory_safe_iff [] "simpson" true [(1 : ℚ)] [0, 1] 4 false)
  rw [← Option.not_isSome_iff_eq_none]
  intro h
  have := this.1 h
  simp at this

/-! ## C07 -/

/-- C07 (equal spacing): for every distribution of the iterations over threads the parallel
trapezoid equals the serial one in exact arithmetic. -/
theorem C07_trapz_parallel_even {K : Type} [Field K] (n : Nat) (hn : 2 ≤ n) (x f : Nat → K)
    (s : String) (t : Int) (p : Bool) (sched : List (List Nat)) (hs : IsSchedule sched 1 (n - 1)) :
    trapzParallelEven (obj s true (tab n f) (tab n x) t p) sched =
      trapz (obj s true (tab n f) (tab n x) t p) := by
  rw [trapz_tab_even _ n hn]
  unfold trapzParallelEven obj
  have r0 : rd (tab n f) 0 = some (f 0) := rd_tab n 0 f (by omega)
  have rn : rd (tab n f) ((n : Int) - 1) = some (f (n-1)) := by
    have : ((n : Int) - 1) = ((n - 1 : Nat) : Int) := by omega
    rw [this, rd_tab _ _ _ (by omega)]
  have x0 : rd (tab n x) 0 = some (x 0) := rd_tab n 0 x (by omega)
  have x1 : rd (tab n x) 1 = some (x 1) := rd_tab n 1 x (by omega)
  simp only [length_tab, r0, rn, x0, x1, Option.bind_eq_bind, Option.bind_some]
  rw [reduction_sched sched 1 (n-1) _ _ (fun i => f i) hs
    (fun i _ h2 => rd_tab _ _ _ (by omega))]
  have : n - 1 - 1 = n - 2 := by omega
  simp [this, add_comm]

/-- C07 (Simpson): the same for the parallel Simpson rule, for every array size. -/
theorem C07_simpson_parallel {K : Type} [Field K] (m : Nat) (hm : 1 ≤ m) (x f : Nat → K)
    (s : String) (t : Int) (p : Bool) (sched : List (List Nat)) (hs : IsSchedule sched 1 m) :
    simpsonParallel (obj s true (tab (2*m+1) f) (tab (2*m+1) x) t p) sched =
      simpson (obj s true (tab (2*m+1) f) (tab (2*m+1) x) t p) := by
  rw [simpson_tab _ m hm]
  unfold simpsonParallel obj
  have e1 : (((2*m+1 : Nat) : Int) - 1) = ((2 * m : Nat) : Int) := by omega
  have hmod : ((2 * m : Nat) : Int).tmod 2 = 0 := by
    rw [Int.tmod_eq_emod_of_nonneg (by omega)]; omega
  have e2 : (((2 * m : Nat) : Int) - 1) = ((2 * m - 1 : Nat) : Int) := by omega
  have r0 : rd (tab (2*m+1) f) 0 = some (f 0) := rd_tab _ 0 f (by omega)
  have r1 : rd (tab (2*m+1) f) ((2*m : Nat) : Int) = some (f (2*m)) := rd_tab _ _ f (by omega)
  have r2 : rd (tab (2*m+1) f) ((2*m-1 : Nat) : Int) = some (f (2*m-1)) := rd_tab _ _ f (by omega)
  have x0 : rd (tab (2*m+1) x) 0 = some (x 0) := rd_tab _ 0 x (by omega)
  have x1 : rd (tab (2*m+1) x) 1 = some (x 1) := rd_tab _ 1 x (by omega)
  simp only [length_tab, if_true, e1, hmod, ne_eq, not_true_eq_false, if_false, e2, r0, r1, r2,
    x0, x1, Option.bind_eq_bind, Option.bind_some]
  rw [reduction_sched sched 1 m _ _ (fun i => 4 * f (2*i-1) + 2 * f (2*i)) hs]
  · simp only [Option.bind_some, Option.pure_def]
    have hsum : ∑ k ∈ range (m - 1), (4 * f (2*(1+k)-1) + 2 * f (2*(1+k)))
        = ∑ k ∈ range (m - 1), (4 * f (2*k+1) + 2 * f (2*k+2)) := by
      apply sum_congr rfl
      intro k _
      have a1 : 2*(1+k)-1 = 2*k+1 := by omega
      have a2 : 2*(1+k) = 2*k+2 := by omega
      rw [a1, a2]
    rw [hsum]; push_cast; rfl
  · intro i h1 h2
    have a1 : 2 * (i : Int) - 1 = ((2 * i - 1 : Nat) : Int) := by omega
    have a2 : 2 * (i : Int) = ((2 * i : Nat) : Int) := by omega
    rw [a1, a2, rd_tab _ _ _ (by omega), rd_tab _ _ _ (by omega)]
    simp

/-- Fallback cases of the parallel Simpson rule run the serial trapezoid rule. -/
theorem C07_simpson_parallel_fallback {K : Type} [Field K] (o : Integrator K)
    (h : o.equally_spaced = false ∨ ∃ n : Nat, o.arr_size = n ∧ n % 2 = 0)
    (sched : List (List Nat)) : simpsonParallel o sched = simpson o := by
  rw [simpson_fallback o h]
  have hs := simpson_fallback o h
  unfold simpsonParallel
  rcases h with h | ⟨n, hn, he⟩
  · rw [h]; rfl
  · split
    · have : (o.arr_size - 1).tmod 2 ≠ 0 := by
        rw [hn]
        rcases Nat.eq_zero_or_pos n with rfl | hp
        · decide
        · rw [Int.tmod_eq_emod_of_nonneg (by omega)]; omega
      rw [if_pos this]
    · rfl

/-- C07 is FALSE for the unequal-spacing parallel trapezoid: the temporaries are shared, and an
interleaving of two threads with one iteration each returns a wrong value. -/
theorem C07_uneven_race_wrong :
    ∃ (x f : Nat → ℚ) (sched : List (List Nat)) (tr : List (Nat × Stmt)),
      IsSchedule sched 1 3 ∧ IsInterleaving sched tr ∧
      trapzParallelUneven x f 0 0 sched.length tr ≠ trapSum 3 x f := by
  refine ⟨fun i => (i : ℚ)^2, fun _ => 1, [[1], [2]],
    [(0, .setInc 1), (1, .setInc 2), (0, .setSum 1), (1, .setSum 2), (0, .addRes), (1, .addRes)],
    ?_, ⟨?_, ?_⟩, ?_⟩
  · show List.Perm _ _; decide
  · decide
  · intro t ht
    have : t = 0 ∨ t = 1 := by simp at ht; omega
    rcases this with rfl | rfl <;> rfl
  · simp [trapzParallelUneven, raceStep, trapSum, List.range_succ, sum_range_succ]
    norm_num

/-- C07 partial (unequal spacing): with a single thread the loop is the serial trapezoid sum.
Missing: more than one thread, where the claim is false (`C07_uneven_race_wrong`). -/
theorem C07_uneven_one_thread_partial {K : Type} [Field K] (n : Nat) (x f : Nat → K) (d1 d2 : K)
    (tr : List (Nat × Stmt)) (ht : IsInterleaving [List.range' 1 (n - 1)] tr) :
    trapzParallelUneven x f d1 d2 1 tr = trapSum n x f := by
  obtain ⟨h0, h1⟩ := ht
  have h1 := h1 0 (by simp)
  have hall : ∀ e ∈ tr, e.1 = 0 := fun e he => by have := h0 e he; simp at this; exact this
  have hf : tr.filter (fun e => e.1 == 0) = tr := by
    apply List.filter_eq_self.2
    intro e he; simp [hall e he]
  rw [hf] at h1
  have htr : tr = (threadProg (List.range' 1 (n-1))).map (fun s => (0, s)) := by
    have h1' : tr.map Prod.snd = threadProg (List.range' 1 (n-1)) := h1
    rw [← h1', List.map_map]
    conv_lhs => rw [← List.map_id tr]
    apply List.map_congr_left
    intro e he
    have := hall e he
    simp [← this]
  subst htr
  unfold trapzParallelUneven trapSum
  generalize n - 1 = m
  have key : ∀ m, (((threadProg (List.range' 1 m)).map (fun s => (0, s))).foldl (raceStep x f)
      { local_increment := d1, local_integrand_sum := d2, priv := fun _ => ((0 : Nat) : K) }).priv 0
      = ∑ i ∈ range m, (x (i + 1) - x i) * (f i + f (i + 1)) / 2 := by
    intro m
    induction m with
    | zero => simp [threadProg]
    | succ m ih =>
      rw [List.range'_concat, threadProg, List.flatMap_append, List.map_append, List.foldl_append]
      rw [sum_range_succ, ← ih]
      simp only [threadProg, List.flatMap_cons, List.flatMap_nil, bodyStmts, List.map_cons,
        List.map_nil, List.foldl_cons, List.foldl_nil, raceStep, List.append_nil, if_true]
      have : 1 + 1 * m = m + 1 := by omega
      rw [this]
      simp
      ring
  simpa using key m

/-- Non-vacuity: schedules and interleavings exist. -/
example : IsSchedule [[3, 1], [2]] 1 4 ∧
    IsInterleaving [List.range' 1 1] [(0, .setInc 1), (0, .setSum 1), (0, .addRes)] := by
  refine ⟨by show List.Perm _ _; decide, by decide, ?_⟩
  intro t ht
  have : t = 0 := by simp at ht; omega
  subst this; rfl

end Verif.NumInt
