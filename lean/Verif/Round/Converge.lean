import Verif.Round.Quad
import Mathlib.Topology.UniformSpace.HeineCantor
import Mathlib.Analysis.Calculus.ContDiff.Basic
/-!
# C138: the integrator approximates integrals
-/
namespace Verif.Round
open Verif.NumInt Verif.NumInt.Spec Spec Set MeasureTheory intervalIntegral

/-- `f'` is the derivative of `f` on the interval. -/
def DerivOn (a b : ℝ) (f f' : ℝ → ℝ) : Prop := ∀ x ∈ Icc a b, HasDerivWithinAt f (f' x) (Icc a b) x

/-- An increasing grid of `n + 1` points from `a` to `b`. -/
structure GridOn (n : ℕ) (a b : ℝ) (x : ℕ → ℝ) : Prop where
  first : x 0 = a
  last : x n = b
  incr : ∀ i < n, x i ≤ x (i + 1)

theorem DerivOn.mono {a b c d : ℝ} {f f' : ℝ → ℝ} (h : DerivOn a b f f') (h1 : a ≤ c) (h2 : d ≤ b) : DerivOn c d f f' :=
  fun x hx => (h x ⟨h1.trans hx.1, hx.2.trans h2⟩).mono (Icc_subset_Icc h1 h2)

theorem GridOn.mono {n : ℕ} {a b : ℝ} {x : ℕ → ℝ} (g : GridOn n a b x) : ∀ {i j : ℕ}, i ≤ j → j ≤ n → x i ≤ x j := by
  intro i j hij
  induction j, hij using Nat.le_induction with
  | base => intro _; exact le_rfl
  | succ j hj ih => intro hn; exact (ih (by omega)).trans (g.incr j (by omega))

theorem GridOn.mem {n : ℕ} {a b : ℝ} {x : ℕ → ℝ} (g : GridOn n a b x) {i : ℕ} (hi : i ≤ n) : x i ∈ Icc a b := by
  rw [← g.first, ← g.last]
  exact ⟨g.mono (Nat.zero_le i) hi, g.mono hi le_rfl⟩

theorem GridOn.integral {n : ℕ} {a b : ℝ} {x : ℕ → ℝ} (g : GridOn n a b x) {f : ℝ → ℝ} (hf : ContinuousOn f (Icc a b)) :
    ∫ s in a..b, f s = ∑ i ∈ Finset.range n, ∫ s in (x i)..(x (i + 1)), f s := by
  rw [sum_integral_adjacent_intervals, g.first, g.last]
  intro k hk
  apply ContinuousOn.intervalIntegrable_of_Icc (g.incr k hk)
  exact hf.mono (Icc_subset_Icc (g.mem (by omega)).1 (g.mem (by omega)).2)

/-- The result of the trapezoid rule minus the integral, interval by interval. -/
theorem GridOn.trap_diff {n : ℕ} {a b : ℝ} {x : ℕ → ℝ} (g : GridOn n a b x) {f : ℝ → ℝ} (hf : ContinuousOn f (Icc a b))
    {e : ℕ → ℝ} (h : ∀ i < n, |(x (i + 1) - x i) * (f (x i) + f (x (i + 1))) / 2 - ∫ s in (x i)..(x (i + 1)), f s| ≤ e i) :
    |trapSum (n + 1) x (fun i => f (x i)) - ∫ s in a..b, f s| ≤ ∑ i ∈ Finset.range n, e i := by
  rw [g.integral hf]
  unfold trapSum
  rw [Nat.add_sub_cancel, ← Finset.sum_sub_distrib]
  refine (Finset.abs_sum_le_sum_abs _ _).trans (Finset.sum_le_sum fun i hi => ?_)
  exact h i (Finset.mem_range.1 hi)

theorem trap_bound {n : ℕ} {a b M : ℝ} {x : ℕ → ℝ} (g : GridOn n a b x) {f f' f'' : ℝ → ℝ} (h1 : DerivOn a b f f')
    (h2 : DerivOn a b f' f'') (hM : ∀ s ∈ Icc a b, |f'' s| ≤ M) :
    |trapSum (n + 1) x (fun i => f (x i)) - ∫ s in a..b, f s| ≤ ∑ i ∈ Finset.range n, M / 12 * (x (i + 1) - x i) ^ 3 := by
  apply g.trap_diff fun s hs => (h1 s hs).continuousWithinAt
  intro i hi
  have m1 := g.mem (show i ≤ n by omega)
  have m2 := g.mem (show i + 1 ≤ n by omega)
  exact trap_panel (g.incr i hi) (h1.mono m1.1 m2.2) (h2.mono m1.1 m2.2)
    (fun s hs => hM s ⟨m1.1.trans hs.1, hs.2.trans m2.2⟩)

/-- C138: on every increasing grid the trapezoid rule of the integrator is off by at most `M/12` times the sum of the cubes of the
spacings, for integrands with second derivative bounded by `M`. -/
theorem C138_trapz (hist : List String) (n : ℕ) (a b M : ℝ) (x : ℕ → ℝ) (g : GridOn n a b x) (f f' f'' : ℝ → ℝ)
    (h1 : DerivOn a b f f') (h2 : DerivOn a b f' f'') (hM : ∀ s ∈ Icc a b, |f'' s| ≤ M) (t : ℤ) (p : Bool) :
    ∃ r, (cniIntegrate (mapperAfter hist) "trapz" false (tab (n + 1) fun i => f (x i)) (tab (n + 1) x) t p).1 = some r ∧
      |r - ∫ s in a..b, f s| ≤ ∑ i ∈ Finset.range n, M / 12 * (x (i + 1) - x i) ^ 3 :=
  ⟨_, C01_trapz_sum hist (n + 1) x (fun i => f (x i)) t p, trap_bound g h1 h2 hM⟩

/-- C138: so with spacings of at most `h` the error is at most `M h² (b - a) / 12`. -/
theorem C138_second_order (hist : List String) (n : ℕ) (a b M h : ℝ) (x : ℕ → ℝ) (g : GridOn n a b x)
    (hx : ∀ i < n, x (i + 1) - x i ≤ h) (f f' f'' : ℝ → ℝ)
    (h1 : DerivOn a b f f') (h2 : DerivOn a b f' f'') (hM : ∀ s ∈ Icc a b, |f'' s| ≤ M) (t : ℤ) (p : Bool) :
    ∃ r, (cniIntegrate (mapperAfter hist) "trapz" false (tab (n + 1) fun i => f (x i)) (tab (n + 1) x) t p).1 = some r ∧
      |r - ∫ s in a..b, f s| ≤ M * h ^ 2 * (b - a) / 12 := by
  obtain ⟨r, hr, er⟩ := C138_trapz hist n a b M x g f f' f'' h1 h2 hM t p
  refine ⟨r, hr, er.trans ?_⟩
  have hM0 : 0 ≤ M := (abs_nonneg _).trans (hM (x n) (g.mem le_rfl))
  have hs : ∑ i ∈ Finset.range n, (x (i + 1) - x i) = b - a := by rw [Finset.sum_range_sub, g.first, g.last]
  calc _ ≤ ∑ i ∈ Finset.range n, M / 12 * h ^ 2 * (x (i + 1) - x i) := by
        refine Finset.sum_le_sum fun i hi => ?_
        have hi' := Finset.mem_range.1 hi
        have d0 : 0 ≤ x (i + 1) - x i := sub_nonneg.2 (g.incr i hi')
        have d1 := hx i hi'
        have : (x (i + 1) - x i) ^ 2 ≤ h ^ 2 := pow_le_pow_left₀ d0 d1 2
        have := mul_le_mul_of_nonneg_left (mul_le_mul_of_nonneg_right this d0) (by positivity : 0 ≤ M / 12)
        calc _ = M / 12 * ((x (i + 1) - x i) ^ 2 * (x (i + 1) - x i)) := by ring
          _ ≤ _ := this
          _ = _ := by ring
    _ = M / 12 * h ^ 2 * (b - a) := by rw [← Finset.mul_sum, hs]
    _ = _ := by ring

/-- C138: Simpson's rule: error at most `m M h⁵ / 90`, that is `M h⁴ (b - a) / 180`. -/
theorem C138_simpson (hist : List String) (m : ℕ) (hm : 1 ≤ m) (a h M : ℝ) (hh : 0 ≤ h) (f f1 f2 f3 f4 : ℝ → ℝ)
    (h1 : DerivOn a (a + 2 * m * h) f f1) (h2 : DerivOn a (a + 2 * m * h) f1 f2) (h3 : DerivOn a (a + 2 * m * h) f2 f3)
    (h4 : DerivOn a (a + 2 * m * h) f3 f4) (hM : ∀ s ∈ Icc a (a + 2 * m * h), |f4 s| ≤ M) (t : ℤ) (p : Bool) :
    ∃ r, (cniIntegrate (mapperAfter hist) "simpson" true (tab (2 * m + 1) fun i => f (a + i * h))
        (tab (2 * m + 1) fun i => a + i * h) t p).1 = some r ∧
      |r - ∫ s in a..(a + 2 * m * h), f s| ≤ M / 180 * h ^ 4 * (2 * m * h) := by
  refine ⟨_, by rw [cni_eq, if_pos rfl, simpson_tab _ m hm], ?_⟩
  have hsum := sum_panels (fun i => f (a + i * h)) m hm
  have hsp : (a + ((1 : ℕ) : ℝ) * h) - (a + ((0 : ℕ) : ℝ) * h) = h := by push_cast; ring
  rw [hsp, ← hsum, Finset.mul_sum]
  have hc : ContinuousOn f (Icc a (a + 2 * m * h)) := fun s hs => (h1 s hs).continuousWithinAt
  have g : GridOn m a (a + 2 * m * h) (fun j => a + 2 * j * h) := by
    refine ⟨by simp, rfl, fun i _ => ?_⟩
    push_cast
    nlinarith
  rw [g.integral hc, ← Finset.sum_sub_distrib]
  calc _ ≤ ∑ j ∈ Finset.range m, M / 90 * h ^ 5 := by
        refine (Finset.abs_sum_le_sum_abs _ _).trans (Finset.sum_le_sum fun j hj => ?_)
        have hj' := Finset.mem_range.1 hj
        have m1 := g.mem (show j ≤ m by omega)
        have m2 := g.mem (show j + 1 ≤ m by omega)
        have e1 : a + 2 * (j : ℝ) * h = a + (2 * j + 1) * h - h := by ring
        have e2 : a + 2 * ((j + 1 : ℕ) : ℝ) * h = a + (2 * j + 1) * h + h := by push_cast; ring
        rw [e1] at m1 ⊢
        rw [e2] at m2 ⊢
        have := simpson_panel hh (h1.mono m1.1 m2.2) (h2.mono m1.1 m2.2) (h3.mono m1.1 m2.2) (h4.mono m1.1 m2.2)
          (fun s hs => hM s ⟨m1.1.trans hs.1, hs.2.trans m2.2⟩)
        rw [show a + ((2 * j : ℕ) : ℝ) * h = a + (2 * j + 1) * h - h by push_cast; ring,
          show a + ((2 * j + 1 : ℕ) : ℝ) * h = a + (2 * j + 1) * h by push_cast; ring,
          show a + ((2 * j + 2 : ℕ) : ℝ) * h = a + (2 * j + 1) * h + h by push_cast; ring]
        exact this
    _ = _ := by
        rw [Finset.sum_const, Finset.card_range, nsmul_eq_mul]
        ring

/-- C138: for every continuous integrand the results converge to the integral as the grid is refined, evenly or not. -/
theorem C138_converges (hist : List String) (a b : ℝ) (hab : a ≤ b) (f : ℝ → ℝ) (hf : ContinuousOn f (Icc a b)) (t : ℤ) (p : Bool)
    (ε : ℝ) (hε : 0 < ε) :
    ∃ δ > 0, ∀ (n : ℕ) (x : ℕ → ℝ), GridOn n a b x → (∀ i < n, x (i + 1) - x i < δ) →
      ∃ r, (cniIntegrate (mapperAfter hist) "trapz" false (tab (n + 1) fun i => f (x i)) (tab (n + 1) x) t p).1 = some r ∧
        |r - ∫ s in a..b, f s| ≤ ε * (b - a) := by
  have hu := isCompact_Icc.uniformContinuousOn_of_continuous hf
  rw [Metric.uniformContinuousOn_iff] at hu
  obtain ⟨δ, hδ, h⟩ := hu ε hε
  refine ⟨δ, hδ, fun n x g hx => ⟨_, C01_trapz_sum hist (n + 1) x (fun i => f (x i)) t p, ?_⟩⟩
  have hs : ∑ i ∈ Finset.range n, (x (i + 1) - x i) = b - a := by rw [Finset.sum_range_sub, g.first, g.last]
  rw [← hs, Finset.mul_sum]
  apply g.trap_diff hf
  intro i hi
  have m1 := g.mem (show i ≤ n by omega)
  have m2 := g.mem (show i + 1 ≤ n by omega)
  have hle := g.incr i hi
  have hci : ContinuousOn f (Icc (x i) (x (i + 1))) := hf.mono (Icc_subset_Icc m1.1 m2.2)
  have e : (x (i + 1) - x i) * (f (x i) + f (x (i + 1))) / 2 - ∫ s in (x i)..(x (i + 1)), f s =
      ∫ s in (x i)..(x (i + 1)), ((f (x i) + f (x (i + 1))) / 2 - f s) := by
    rw [integral_sub intervalIntegrable_const (hci.intervalIntegrable_of_Icc hle), intervalIntegral.integral_const, smul_eq_mul]
    ring
  rw [e, ← Real.norm_eq_abs]
  have := norm_integral_le_of_norm_le_const (a := x i) (b := x (i + 1)) (C := ε)
    (f := fun s => (f (x i) + f (x (i + 1))) / 2 - f s) (by
      intro s hs
      rw [uIoc_of_le hle] at hs
      have ms : s ∈ Icc a b := ⟨m1.1.trans hs.1.le, hs.2.trans m2.2⟩
      have k1 := h (x i) m1 s ms (by
        rw [Real.dist_eq, abs_sub_comm, abs_of_nonneg (by linarith [hs.1])]
        linarith [hx i hi, hs.2])
      have k2 := h (x (i + 1)) m2 s ms (by
        rw [Real.dist_eq, abs_of_nonneg (by linarith [hs.2])]
        linarith [hx i hi, hs.1])
      rw [Real.dist_eq] at k1 k2
      rw [Real.norm_eq_abs, show (f (x i) + f (x (i + 1))) / 2 - f s = ((f (x i) - f s) + (f (x (i + 1)) - f s)) / 2 by ring, abs_div,
        abs_two]
      have := abs_add_le (f (x i) - f s) (f (x (i + 1)) - f s)
      linarith)
  rwa [abs_of_nonneg (by linarith)] at this

/-- C138: everything together, with rounding: machine numbers `x` for the grid and `y` for the values of the integrand, each value
with an error of at most `ε`. -/
theorem C138_total {R : Rnd} (hist : List String) (n : ℕ) (a b M ε : ℝ) (x y : ℕ → FP R) (g : GridOn n a b (vals x))
    (f f' f'' : ℝ → ℝ) (h1 : DerivOn a b f f') (h2 : DerivOn a b f' f'') (hM : ∀ s ∈ Icc a b, |f'' s| ≤ M)
    (hy : ∀ i ≤ n, |(y i).val - f (x i).val| ≤ ε) (t : ℤ) (p : Bool) :
    ∃ r, (cniIntegrate (mapperAfter hist) "trapz" false (tab (n + 1) y) (tab (n + 1) x) t p).1 = some r ∧
      |r.val - ∫ s in a..b, f s| ≤ ∑ i ∈ Finset.range n, M / 12 * ((x (i + 1)).val - (x i).val) ^ 3 + ε * (b - a) +
        ((1 + R.u) ^ (n + 4) - 1) * trapSize (n + 1) (vals x) (vals y) := by
  obtain ⟨r, hr, er⟩ := C137_trapz hist (n + 1) x y t p
  refine ⟨r, hr, ?_⟩
  have q := trap_bound g h1 h2 hM
  have hs : ∑ i ∈ Finset.range n, (vals x (i + 1) - vals x i) = b - a := by rw [Finset.sum_range_sub, g.first, g.last]
  have d : |trapSum (n + 1) (vals x) (vals y) - trapSum (n + 1) (vals x) (fun i => f (vals x i))| ≤ ε * (b - a) := by
    unfold trapSum
    rw [Nat.add_sub_cancel, ← Finset.sum_sub_distrib, ← hs, Finset.mul_sum]
    refine (Finset.abs_sum_le_sum_abs _ _).trans (Finset.sum_le_sum fun i hi => ?_)
    have hi' := Finset.mem_range.1 hi
    have d0 : 0 ≤ vals x (i + 1) - vals x i := sub_nonneg.2 (g.incr i hi')
    have k1 := hy i (by omega)
    have k2 := hy (i + 1) (by omega)
    have e : (vals x (i + 1) - vals x i) * (vals y i + vals y (i + 1)) / 2 -
        (vals x (i + 1) - vals x i) * (f (vals x i) + f (vals x (i + 1))) / 2 =
        (vals x (i + 1) - vals x i) * (((y i).val - f (x i).val + ((y (i + 1)).val - f (x (i + 1)).val)) / 2) := by
      unfold vals
      ring
    rw [e, abs_mul, abs_of_nonneg d0, abs_div, abs_two, mul_comm ε]
    refine mul_le_mul_of_nonneg_left ?_ d0
    have := abs_add_le ((y i).val - f (x i).val) ((y (i + 1)).val - f (x (i + 1)).val)
    linarith
  have t1 := abs_sub_le r.val (trapSum (n + 1) (vals x) (vals y)) (∫ s in a..b, f s)
  have t2 := abs_sub_le (trapSum (n + 1) (vals x) (vals y)) (trapSum (n + 1) (vals x) (fun i => f (vals x i))) (∫ s in a..b, f s)
  have q' : |trapSum (n + 1) (vals x) (fun i => f (vals x i)) - ∫ s in a..b, f s| ≤
      ∑ i ∈ Finset.range n, M / 12 * ((x (i + 1)).val - (x i).val) ^ 3 := q
  linarith

/-- Non-vacuity: the integral of the square over an uneven grid. -/
example : GridOn 2 0 3 (fun i => if i = 0 then 0 else if i = 1 then 1 else 3) ∧ DerivOn 0 3 (fun s => s ^ 2) (fun s => 2 * s) ∧
    DerivOn 0 3 (fun s => 2 * s) (fun _ => 2) ∧ ∀ s ∈ Icc (0 : ℝ) 3, |(2 : ℝ)| ≤ 2 := by
  refine ⟨⟨by simp, by simp, ?_⟩, fun s _ => ?_, fun s _ => ?_, fun s _ => by norm_num⟩
  · intro i hi
    interval_cases i <;> norm_num
  · have := (hasDerivAt_pow 2 s).hasDerivWithinAt (s := Icc 0 3)
    simpa using this
  · have := ((hasDerivAt_id s).const_mul 2).hasDerivWithinAt (s := Icc 0 3)
    simpa using this

end Verif.Round
