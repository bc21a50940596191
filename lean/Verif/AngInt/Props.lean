import Verif.AngInt.Model
import Verif.NumInt.Props
import Verif.Hough.Range
import Mathlib.Analysis.SpecialFunctions.Trigonometric.Chebyshev.ChebyshevGauss
import Mathlib.Analysis.SpecialFunctions.Integrals.Basic
/-!
# C47, C48, C49, C64: angular integrals
-/
namespace Verif.AngInt
noncomputable section
open Real Finset

/-! ### C47 -/

theorem mod2pi_of_mem (x : ℝ) (h0 : 0 ≤ x) (h1 : x < 2 * π) : mod2pi x = x := by
  unfold mod2pi
  have : ⌊x / (2 * π)⌋ = 0 := by
    rw [Int.floor_eq_zero_iff]
    exact ⟨by positivity, by rw [div_lt_one (by positivity)]; exact h1⟩
  rw [this]; simp

theorem cgAngle_mem (n i : ℕ) (h : i < n) : 0 < cgAngle n (i + 1) ∧ cgAngle n (i + 1) < π := by
  have hn : (0 : ℝ) < n := by exact_mod_cast (by omega : 0 < n)
  have hi : ((i : ℝ) + 1) ≤ n := by exact_mod_cast h
  have h0 : (0 : ℝ) ≤ i := by positivity
  unfold cgAngle
  push_cast
  constructor
  · apply div_pos (mul_pos pi_pos (by linarith)) (by linarith)
  · rw [div_lt_iff₀ (by linarith)]
    nlinarith [pi_pos]

theorem cg_point (n i : ℕ) (h : i < n) : cos (mod2pi (cgAngle n (i + 1))) = cos ((2 * i + 1) / (2 * n) * π) := by
  obtain ⟨h1, h2⟩ := cgAngle_mem n i h
  rw [mod2pi_of_mem _ h1.le (by linarith [pi_pos])]
  unfold cgAngle
  congr 1
  push_cast
  ring

theorem chebyshevGauss_some (g : ℝ → ℝ) (n : ℕ) :
    chebyshevGauss (fun x => some (g x)) n =
      some (π / n * ∑ i ∈ range n, g (cos ((2 * i + 1) / (2 * n) * π))) := by
  unfold chebyshevGauss
  have : (List.range n).mapM (fun i => some (g (cos (mod2pi (cgAngle n (i + 1)))))) =
      some ((List.range n).map fun i => g (cos (mod2pi (cgAngle n (i + 1))))) := by
    generalize List.range n = l
    induction l with
    | nil => rfl
    | cons a l ih => rw [List.mapM_cons, ih]; rfl
  rw [this]
  simp only [Option.map_some, Option.some.injEq, List.map_map]
  rw [mul_sum, Finset.sum_range, ← List.sum_ofFn]
  congr 1
  apply List.ext_getElem (by simp)
  intro i h1 h2
  simp only [List.length_map, List.length_range] at h1
  simp [cg_point n i h1]

/-- **C47.** The Chebyshev-Gauss rule of order `n ≥ 1` returns the exact value of the integral of
`p(x)/sqrt(1-x²)` over `(-1,1)` for every polynomial of degree below `2n`. -/
theorem C47_exact (n : ℕ) (hn : n ≠ 0) (p : Polynomial ℝ) (hp : p.degree < 2 * n) :
    chebyshevGauss (fun x => some (p.eval x)) n = some (∫ x in (-1)..1, p.eval x / √(1 - x ^ 2)) := by
  rw [chebyshevGauss_some]
  have h1 := Polynomial.Chebyshev.integral_eq_sumZeroes hn hp
  rw [Polynomial.Chebyshev.integral_measureT] at h1
  unfold Polynomial.Chebyshev.sumZeroes at h1
  rw [← h1]
  congr 1
  apply intervalIntegral.integral_congr
  intro x _
  simp only [sqrt_inv, div_eq_mul_inv]

/-- **C47.** If the function fails at one of the points the rule reports failure. -/
theorem C47_failure (f : ℝ → Option ℝ) (n i : ℕ) (h : i < n) (hf : f (cos ((2 * i + 1) / (2 * n) * π)) = none) :
    chebyshevGauss f n = none := by
  unfold chebyshevGauss
  rw [Option.map_eq_none_iff]
  rw [← cg_point n i h] at hf
  have hm : i ∈ List.range n := List.mem_range.2 h
  revert hm hf
  generalize List.range n = l
  intro hf hm
  induction l with
  | nil => simp at hm
  | cons a l ih =>
    rw [List.mapM_cons]
    rcases List.mem_cons.1 hm with rfl | hm
    · rw [hf]; rfl
    · rw [ih hm]
      cases f (cos (mod2pi (cgAngle n (a + 1)))) <;> rfl

/-- Non-vacuity of `C47_exact`. -/
example : (Polynomial.X ^ 3 : Polynomial ℝ).degree < 2 * ((2 : ℕ) : WithBot ℕ) := by
  rw [Polynomial.degree_X_pow]; exact_mod_cast (by norm_num : 3 < 2 * 2)

/-! ### C48 -/

/-- Sign with which a mode enters when it is, or is not, complex conjugated. -/
def sgn (b : Bool) : ℤ := if b then -1 else 1

/-- Which of the three modes are conjugated. -/
def conjugated : Conj → Option (Bool × Bool × Bool)
  | .none => some (false, false, false)
  | .flag b => some (b, false, false)
  | .tuple [a, b, c] => some (a, b, c)
  | .tuple _ => none

theorem adapt_three (conj : Conj) (m1 m2 m3 : ℤ) (a b c : Bool) (h : conjugated conj = some (a, b, c)) :
    adapt conj [m1, m2, m3] = .ok [sgn a * m1, sgn b * m2, sgn c * m3] := by
  match conj with
  | .none => simp [conjugated] at h; obtain ⟨rfl, rfl, rfl⟩ := h; simp [adapt, sgn]
  | .flag x =>
    simp [conjugated] at h; obtain ⟨rfl, rfl, rfl⟩ := h
    cases x <;> simp [adapt, sgn, conjugator]
  | .tuple [x, y, z] =>
    simp [conjugated] at h; obtain ⟨rfl, rfl, rfl⟩ := h
    cases x <;> cases y <;> cases z <;> simp [adapt, sgn, conjugator]
  | .tuple [] => simp [conjugated] at h
  | .tuple [x] => simp [conjugated] at h
  | .tuple [x, y] => simp [conjugated] at h
  | .tuple (_ :: _ :: _ :: _ :: _) => simp [conjugated] at h

/-- **C48.** When the azimuthal orders, with the signs of the conjugated modes reversed, do not sum
to zero the angular integral is zero, whatever the object contains (even if the profiles do not
exist). -/
theorem C48_vanishes (o : Obj) (descrips : List String) (m1 m2 m3 : ℤ) (conj : Conj) (op : Opts) (a b c : Bool)
    (h : conjugated conj = some (a, b, c)) (hs : sgn a * m1 + sgn b * m2 + sgn c * m3 ≠ 0) :
    angularIntegral o descrips (some [m1, m2, m3]) false conj op = .ok 0 := by
  have hne : (sgn a * m1 + (sgn b * m2 + sgn c * m3) == 0) = false := by
    rw [beq_eq_false_iff_ne]; intro h'; apply hs; omega
  simp [angularIntegral, adapt_three conj m1 m2 m3 a b c h, selectionRule, hne]

/-- **C48.** Otherwise, or when no check is requested, it is `2π` times the latitudinal integral. -/
theorem C48_otherwise (o : Obj) (descrips : List String) (mList : Option (List ℤ)) (onlyTheta : Bool) (conj : Conj)
    (op : Opts) (v : ℝ) (hv : thetaIntegral o descrips op = .ok v)
    (h : onlyTheta = true ∨ mList = none ∨ ∃ m1 m2 m3 a b c, mList = some [m1, m2, m3] ∧
      conjugated conj = some (a, b, c) ∧ sgn a * m1 + sgn b * m2 + sgn c * m3 = 0) :
    angularIntegral o descrips mList onlyTheta conj op = .ok (2 * π * v) := by
  rcases h with rfl | rfl | ⟨m1, m2, m3, a, b, c, rfl, hc, hs⟩
  · simp [angularIntegral, hv]
  · cases onlyTheta <;> simp [angularIntegral, hv]
  · cases onlyTheta
    · have he : (sgn a * m1 + (sgn b * m2 + sgn c * m3) == 0) = true := by
        rw [beq_iff_eq]; omega
      simp [angularIntegral, hv, adapt_three conj m1 m2 m3 a b c hc, selectionRule, he]
    · simp [angularIntegral, hv]

theorem azimuthal_integral (S : ℤ) :
    (∫ φ in (0 : ℝ)..(2 * π), Complex.exp (Complex.I * S * φ)) = if S = 0 then (2 * π : ℂ) else 0 := by
  split
  · next h => subst h; simp
  · next h =>
    have hc : (Complex.I * S : ℂ) ≠ 0 := mul_ne_zero Complex.I_ne_zero (by exact_mod_cast h)
    rw [integral_exp_mul_complex hc]
    have : Complex.exp (Complex.I * S * ((2 * π : ℝ) : ℂ)) = 1 := by
      have := Complex.exp_int_mul_two_pi_mul_I S
      rw [← this]; congr 1; push_cast; ring
    rw [this]; simp

/-- **C48.** In one formula: with the check, the result is the latitudinal integral times the integral
over the circle of the product of the three azimuthal factors `exp(± i m φ)`, the sign being negative
for the conjugated modes. -/
theorem C48_phi_integral (o : Obj) (descrips : List String) (m1 m2 m3 : ℤ) (conj : Conj) (op : Opts) (a b c : Bool)
    (h : conjugated conj = some (a, b, c)) (v : ℝ) (hv : thetaIntegral o descrips op = .ok v) :
    ∃ w : ℝ, angularIntegral o descrips (some [m1, m2, m3]) false conj op = .ok w ∧
      (w : ℂ) = (∫ φ in (0 : ℝ)..(2 * π), Complex.exp (Complex.I * ((sgn a * m1 : ℤ) : ℂ) * φ) *
        Complex.exp (Complex.I * ((sgn b * m2 : ℤ) : ℂ) * φ) * Complex.exp (Complex.I * ((sgn c * m3 : ℤ) : ℂ) * φ)) * v := by
  have e : ∀ φ : ℝ, Complex.exp (Complex.I * ((sgn a * m1 : ℤ) : ℂ) * φ) *
      Complex.exp (Complex.I * ((sgn b * m2 : ℤ) : ℂ) * φ) * Complex.exp (Complex.I * ((sgn c * m3 : ℤ) : ℂ) * φ) =
      Complex.exp (Complex.I * ((sgn a * m1 + sgn b * m2 + sgn c * m3 : ℤ) : ℂ) * φ) := by
    intro φ; rw [← Complex.exp_add, ← Complex.exp_add]; congr 1; push_cast; ring
  simp only [e, azimuthal_integral]
  by_cases hs : sgn a * m1 + sgn b * m2 + sgn c * m3 = 0
  · refine ⟨_, C48_otherwise o descrips _ false conj op v hv (Or.inr (Or.inr ⟨m1, m2, m3, a, b, c, rfl, h, hs⟩)), ?_⟩
    rw [if_pos hs]; push_cast; ring
  · refine ⟨0, C48_vanishes o descrips m1 m2 m3 conj op a b c h hs, ?_⟩
    rw [if_neg hs]; simp

/-- **C48.** A tuple of conjugation flags of any length other than three ends the program. -/
theorem C48_bad_tuple (o : Obj) (descrips : List String) (ms : List ℤ) (bs : List Bool) (hb : bs.length ≠ 3) (op : Opts) :
    angularIntegral o descrips (some ms) false (.tuple bs) op = .exited := by
  simp [angularIntegral, adapt, hb]

/-- Non-vacuity: the triad `m = 2, -1, -1` with nothing conjugated, and `2, 1, 1` with the first mode
conjugated, satisfy the rule. -/
example : conjugated (.flag true) = some (true, false, false) ∧ sgn true * 2 + sgn false * 1 + sgn false * 1 = 0 := by
  decide
example : ∃ o : Obj, ∃ v, thetaIntegral o ["a", "b"] {} = .ok v := by
  have h : product ⟨fun _ => some [1, 1], [0, 1]⟩ ["a", "b"] = some [1, 1] := by
    simp [product, arrMul]
  have e : ∃ v, regular "trapz" [1, 1] [0, 1] = some v := by
    have h1 := NumInt.cni_eq [] "trapz" true ([1, 1] : List ℝ) [0, 1] 4 false
    rw [if_neg (by decide)] at h1
    have h2 := NumInt.trapz_tab_even "trapz" 2 (by norm_num) (fun i : ℕ => (i : ℝ)) (fun _ => 1) 4 false
    have e1 : ([1, 1] : List ℝ) = tab 2 (fun _ => 1) := by simp [tab, List.range_succ]
    have e2 : ([0, 1] : List ℝ) = tab 2 (fun i : ℕ => (i : ℝ)) := by simp [tab, List.range_succ]
    rw [e1, e2] at h1 ⊢
    exact ⟨_, h1.trans h2⟩
  obtain ⟨v, hv⟩ := e
  refine ⟨⟨fun _ => some [1, 1], [0, 1]⟩, v, ?_⟩
  unfold thetaIntegral
  rw [h]
  simp [hv]

/-! ### The collocation grid -/

/-- The points of the collocation grid with `2M` points, in closed form. -/
def gridFn (M : ℕ) (j : ℕ) : ℝ := -cos (π * (2 * j + 1) / (4 * M))

/-- The latitudinal grid of the coupling coefficients: `mu_range` of the Hough functions
(hough_function_handler.py 75, 171-172; quadratic_coupling_coefficient_rotating.py 598-624). -/
def grid (c : Hough.Cfg) : List ℝ := List.ofFn (Hough.muRange c)

theorem grid_eq (c : Hough.Cfg) : grid c = tab (2 * c.M) (gridFn c.M) := by
  unfold grid tab
  apply List.ext_getElem (by simp; omega)
  intro j h1 h2
  simp only [List.length_ofFn] at h1
  rw [List.getElem_ofFn, List.getElem_map, List.getElem_range]
  have hM : (0 : ℝ) < c.M := by exact_mod_cast (by omega : 0 < c.M)
  unfold Hough.muRange Hough.catRev gridFn
  by_cases hj : j < c.M
  · rw [show (⟨j, h1⟩ : Fin (c.M + c.M)) = Fin.castAdd c.M ⟨j, hj⟩ from rfl, Fin.append_left]
    simp only [Hough.Cfg.mu, Cheby.mu, Cheby.theta]
    rw [neg_one_mul]; congr 2
    field_simp; ring
  · have hk : j - c.M < c.M := by omega
    rw [show (⟨j, h1⟩ : Fin (c.M + c.M)) = Fin.natAdd c.M ⟨j - c.M, hk⟩ by ext; simp; omega, Fin.append_right]
    simp only [Function.comp, Hough.Cfg.mu, Cheby.mu, Cheby.theta, Fin.val_rev]
    have hc : ((c.M - (j - c.M + 1) : ℕ) : ℝ) = 2 * c.M - j - 1 := by
      rw [show c.M - (j - c.M + 1) = 2 * c.M - j - 1 by omega]
      rw [Nat.cast_sub (by omega), Nat.cast_sub (by omega)]; push_cast; ring
    rw [hc, ← cos_pi_sub]
    congr 1
    field_simp
    ring

/-- Consecutive spacing. -/
theorem gridFn_step (M j : ℕ) (hM : 0 < M) :
    gridFn M (j + 1) - gridFn M j = 2 * sin (π / (4 * M)) * sin (π * (j + 1) / (2 * M)) := by
  have hM' : (0 : ℝ) < M := by exact_mod_cast hM
  unfold gridFn
  have h := cos_sub_cos (π * (2 * j + 1) / (4 * M)) (π * (2 * ((j + 1 : ℕ) : ℝ) + 1) / (4 * M))
  have e1 : (π * (2 * j + 1) / (4 * M) + π * (2 * ((j + 1 : ℕ) : ℝ) + 1) / (4 * M)) / 2 = π * (j + 1) / (2 * M) := by
    push_cast; field_simp; ring
  have e2 : (π * (2 * j + 1) / (4 * M) - π * (2 * ((j + 1 : ℕ) : ℝ) + 1) / (4 * M)) / 2 = -(π / (4 * M)) := by
    push_cast; field_simp; ring
  rw [e1, e2, sin_neg] at h
  linarith

theorem sin_first_le (M j : ℕ) (hM : 0 < M) (hj : j + 1 < 2 * M) :
    sin (π * ((0 : ℕ) + 1) / (2 * M)) ≤ sin (π * (j + 1) / (2 * M)) := by
  have hM' : (0 : ℝ) < M := by exact_mod_cast hM
  have hM1 : (1 : ℝ) ≤ M := by exact_mod_cast hM
  have hjr : (j : ℝ) + 1 + 1 ≤ 2 * M := by exact_mod_cast hj
  have hj0 : (0 : ℝ) ≤ j := by positivity
  have ha : π * ((0 : ℕ) + 1) / (2 * M) ≤ π / 2 := by
    rw [div_le_div_iff₀ (by positivity) (by positivity)]; push_cast; nlinarith [pi_pos]
  have ha0 : -(π / 2) ≤ π * ((0 : ℕ) + 1) / (2 * M) := by
    have : 0 ≤ π * (((0 : ℕ) : ℝ) + 1) / (2 * M) := by positivity
    linarith [pi_pos]
  by_cases hle : π * (j + 1) / (2 * M) ≤ π / 2
  · refine sin_le_sin_of_le_of_le_pi_div_two ha0 hle ?_
    rw [div_le_div_iff_of_pos_right (by positivity)]
    push_cast; nlinarith [pi_pos]
  · rw [← sin_pi_sub (π * (j + 1) / (2 * M))]
    refine sin_le_sin_of_le_of_le_pi_div_two ha0 (by linarith [not_le.1 hle]) ?_
    rw [le_sub_iff_add_le, ← add_div, div_le_iff₀ (by positivity)]
    push_cast; nlinarith [pi_pos]

/-- The first spacing is the smallest. -/
theorem first_smallest (M j : ℕ) (hM : 0 < M) (hj : j + 1 < 2 * M) :
    gridFn M 1 - gridFn M 0 ≤ gridFn M (j + 1) - gridFn M j := by
  have h0 := gridFn_step M 0 hM
  rw [show (0 + 1 : ℕ) = 1 from rfl] at h0
  rw [h0, gridFn_step M j hM]
  have hM' : (0 : ℝ) < M := by exact_mod_cast hM
  have hM1 : (1 : ℝ) ≤ M := by exact_mod_cast hM
  have hs : 0 ≤ 2 * sin (π / (4 * M)) := by
    have : 0 ≤ sin (π / (4 * M)) := by
      apply sin_nonneg_of_nonneg_of_le_pi (by positivity)
      rw [div_le_iff₀ (by positivity)]; nlinarith [pi_pos]
    linarith
  exact mul_le_mul_of_nonneg_left (sin_first_le M j hM hj) hs

/-- For at least four points the middle spacing is strictly larger than the first one. -/
theorem middle_larger (M : ℕ) (hM : 2 ≤ M) :
    gridFn M 1 - gridFn M 0 < gridFn M (M - 1 + 1) - gridFn M (M - 1) := by
  have h0 := gridFn_step M 0 (by omega)
  rw [show (0 + 1 : ℕ) = 1 from rfl] at h0
  rw [h0, gridFn_step M (M - 1) (by omega)]
  have hM' : (2 : ℝ) ≤ M := by exact_mod_cast hM
  have hs : 0 < 2 * sin (π / (4 * M)) := by
    have : 0 < sin (π / (4 * M)) := by
      apply sin_pos_of_pos_of_lt_pi (by positivity)
      rw [div_lt_iff₀ (by positivity)]; nlinarith [pi_pos]
    linarith
  apply mul_lt_mul_of_pos_left _ hs
  have e : π * (((M - 1 : ℕ) : ℝ) + 1) / (2 * M) = π / 2 := by
    rw [Nat.cast_sub (by omega)]; push_cast; field_simp; ring
  rw [e]
  apply sin_lt_sin_of_lt_of_le_pi_div_two
  · have : 0 ≤ π * (((0 : ℕ) : ℝ) + 1) / (2 * M) := by positivity
    linarith [pi_pos]
  · exact le_refl _
  · rw [div_lt_div_iff₀ (by positivity) (by positivity)]; push_cast; nlinarith [pi_pos]

/-! ### C49 -/

/-- What the integrator returns for an even number of points, whatever the method name: every
trapezoid gets the width of the first one. -/
theorem regular_tab (method : String) (n : ℕ) (hn : 2 ≤ n) (he : n % 2 = 0) (x f : ℕ → ℝ) :
    regular method (tab n f) (tab n x) = some (∑ j ∈ range (n - 1), (x 1 - x 0) * (f j + f (j + 1)) / 2) := by
  have h1 : regular method (tab n f) (tab n x) = (NumInt.cniIntegrate NumInt.mapper0 "trapz" true (tab n f) (tab n x) 4 false).1 := by
    unfold regular
    by_cases hs : method = "simpson"
    · subst hs
      exact NumInt.C04_simpson_fallback [] true _ _ (Or.inr (by simp [tab, he])) 4 false
    · exact NumInt.C04_unknown_is_trapz [] method hs true _ _ 4 false
  have h2 := NumInt.cni_eq [] "trapz" true (tab n f) (tab n x) 4 false
  rw [if_neg (by decide), NumInt.trapz_tab_even _ n hn] at h2
  rw [h1]
  refine h2.trans ?_
  have h3 := NumInt.trapSum_equi n hn (fun j : ℕ => (j : ℝ) * (x 1 - x 0)) f (by intro k _; push_cast; ring)
  rw [show ((1 : ℕ) : ℝ) * (x 1 - x 0) - ((0 : ℕ) : ℝ) * (x 1 - x 0) = x 1 - x 0 by push_cast; ring] at h3
  rw [← h3]
  unfold NumInt.Spec.trapSum
  congr 1
  apply sum_congr rfl
  intro i _
  push_cast
  ring

open NumInt.Spec in
/-- **C49 refuted.** On the collocation grid with `2M ≥ 2` points, for both methods, the result for an
integrand without negative values never exceeds the trapezoid integral, and for every `M ≥ 2` it is
strictly smaller as soon as the integrand is positive next to the equator (the integrator is told that
the grid is equally spaced, and uses the width of the first interval for all of them). -/
theorem C49_underestimates_wrong (c : Hough.Cfg) (hM : 1 ≤ c.M) (method : String) (f : ℕ → ℝ) (hf : ∀ j, 0 ≤ f j) :
    ∃ r, regular method (tab (2 * c.M) f) (grid c) = some r ∧ r ≤ trapSum (2 * c.M) (gridFn c.M) f ∧
      (2 ≤ c.M → 0 < f (c.M - 1) → r < trapSum (2 * c.M) (gridFn c.M) f) := by
  rw [grid_eq]
  refine ⟨_, regular_tab method _ (by omega) (by omega) _ f, ?_, ?_⟩
  · unfold trapSum
    apply sum_le_sum
    intro j hj
    rw [mem_range] at hj
    have := first_smallest c.M j (by omega) (by omega)
    have h2 := add_nonneg (hf j) (hf (j + 1))
    have := mul_le_mul_of_nonneg_right this h2
    linarith
  · intro h2 hpos
    unfold trapSum
    refine sum_lt_sum (fun j hj => ?_) ⟨c.M - 1, mem_range.2 (by omega), ?_⟩
    · rw [mem_range] at hj
      have := first_smallest c.M j (by omega) (by omega)
      have h2 := add_nonneg (hf j) (hf (j + 1))
      have := mul_le_mul_of_nonneg_right this h2
      linarith
    · have := middle_larger c.M h2
      have h3 : 0 < f (c.M - 1) + f (c.M - 1 + 1) := by linarith [hf (c.M - 1 + 1)]
      have := mul_lt_mul_of_pos_right this h3
      linarith

open NumInt.Spec in
/-- **C49**, what does hold: the result is the trapezoid integral when the grid is equally spaced, in
particular for two points.  Missing: the collocation grids with four points or more, for which the
claim is false (`C49_underestimates_wrong`). -/
theorem C49_equispaced_partial (x f : ℕ → ℝ) (n : ℕ) (hn : 2 ≤ n) (he : n % 2 = 0) (method : String)
    (hx : Equispaced n x) : regular method (tab n f) (tab n x) = some (trapSum n x f) := by
  rw [regular_tab method n hn he]
  congr 1
  unfold trapSum
  refine sum_congr rfl fun j hj => ?_
  rw [mem_range] at hj
  rw [hx j (by omega)]

open NumInt.Spec in
/-- **C49 refuted** for the Lee (2012) normalisation: with the returned factor the integral
`2π ∫ hr² dmu` is larger than one on every collocation grid with at least four points, for every
radial profile that does not vanish at the last point before the equator. -/
theorem C49_normalisation_wrong (c : Hough.Cfg) (hM : 2 ≤ c.M) (hr : ℕ → ℝ) (h0 : hr (c.M - 1) ≠ 0) :
    ∃ k, leeFactor (grid c) (tab (2 * c.M) hr) = some k ∧
      1 < 2 * π * trapSum (2 * c.M) (gridFn c.M) (fun j => (k * hr j) ^ 2) := by
  obtain ⟨r, h1, _, h3⟩ := C49_underestimates_wrong c (by omega) "trapz" (fun j => hr j ^ 2) (fun j => sq_nonneg _)
  have hlt := h3 hM (by positivity)
  have e : (tab (2 * c.M) hr).map (fun v => v ^ 2) = tab (2 * c.M) (fun j => hr j ^ 2) := by
    simp [tab]
  refine ⟨1 / √(2 * π * r), by rw [leeFactor, e, h1]; rfl, ?_⟩
  -- the rule's own value is positive
  have hr0 : 0 < r := by
    rw [grid_eq, regular_tab "trapz" _ (by omega) (by omega)] at h1
    simp only [Option.some.injEq] at h1
    rw [← h1]
    have hstep : 0 < gridFn c.M 1 - gridFn c.M 0 := by
      have h := gridFn_step c.M 0 (by omega)
      rw [show (0 + 1 : ℕ) = 1 from rfl] at h
      rw [h]
      have hM' : (2 : ℝ) ≤ c.M := by exact_mod_cast hM
      have a1 : 0 < sin (π / (4 * c.M)) := by
        apply sin_pos_of_pos_of_lt_pi (by positivity)
        rw [div_lt_iff₀ (by positivity)]; nlinarith [pi_pos]
      have a2 : 0 < sin (π * (((0 : ℕ) : ℝ) + 1) / (2 * c.M)) := by
        apply sin_pos_of_pos_of_lt_pi (by positivity)
        rw [div_lt_iff₀ (by positivity)]; push_cast; nlinarith [pi_pos]
      positivity
    refine sum_pos' (fun j _ => by positivity) ⟨c.M - 1, mem_range.2 (by omega), by positivity⟩
  have hk : (1 / √(2 * π * r)) ^ 2 = 1 / (2 * π * r) := by
    rw [div_pow, one_pow, sq_sqrt (by positivity)]
  have hscale : trapSum (2 * c.M) (gridFn c.M) (fun j => (1 / √(2 * π * r) * hr j) ^ 2) =
      1 / (2 * π * r) * trapSum (2 * c.M) (gridFn c.M) (fun j => hr j ^ 2) := by
    unfold trapSum
    rw [mul_sum]
    refine sum_congr rfl fun j _ => ?_
    simp only [mul_pow, hk]; ring
  rw [hscale]
  have : 2 * π * (1 / (2 * π * r) * trapSum (2 * c.M) (gridFn c.M) fun j => hr j ^ 2) =
      (trapSum (2 * c.M) (gridFn c.M) fun j => hr j ^ 2) / r := by
    field_simp
  rw [this, lt_div_iff₀ hr0]
  linarith

/-- Non-vacuity: four points. -/
example : 2 ≤ (Hough.Cfg.M ⟨2, 0, 1, 0, .prat⟩) := le_refl _

/-! ### C64: the Chebyshev-Gauss option -/

theorem interp1d_below (xs ys : List ℝ) (t : ℝ) (h : ∀ x ∈ xs, t < x) : interp1d xs ys t = none := by
  match xs, ys with
  | x0 :: x1 :: xs, y0 :: y1 :: ys => simp [interp1d, h x0 (by simp)]
  | [], _ => simp [interp1d]
  | [_], _ => simp [interp1d]
  | _ :: _ :: _, [] => simp [interp1d]
  | _ :: _ :: _, [_] => simp [interp1d]

theorem interp1d_node (xs ys : List ℝ) (hx : xs.Pairwise (· < ·)) (hl : xs.length = ys.length) (h2 : 2 ≤ xs.length)
    (k : ℕ) (hk : k < xs.length) : interp1d xs ys xs[k] = some (ys[k]'(by omega)) := by
  induction xs generalizing ys k with
  | nil => simp at h2
  | cons x0 xs ih =>
    match xs, ys, hl with
    | [], _, _ => simp at h2
    | x1 :: xs, y0 :: y1 :: ys, hl =>
      have h01 : x0 < x1 := (List.pairwise_cons.1 hx).1 x1 (by simp)
      match k with
      | 0 => simp [interp1d, h01.le]
      | 1 =>
        have : x1 - x0 ≠ 0 := sub_ne_zero.2 h01.ne'
        simp [interp1d, h01.le]
        field_simp
        ring
      | k + 2 =>
        have hx' := (List.pairwise_cons.1 hx).2
        have hk' : k < xs.length := by simpa using hk
        have hgt : x1 < xs[k] := (List.pairwise_cons.1 hx').1 _ (List.getElem_mem hk')
        have hgt0 : x0 < xs[k] := h01.trans hgt
        have := ih (y1 :: ys) hx' (by simpa using hl) (by simp; omega) (k + 1) (by simpa using hk')
        simp only [List.getElem_cons_succ] at this ⊢
        rw [interp1d, if_neg (not_lt.2 hgt0.le), if_neg (not_le.2 hgt)]
        exact this

theorem gridFn_mono (M : ℕ) (i j : ℕ) (hij : i < j) (hj : j < 2 * M) : gridFn M i < gridFn M j := by
  have hM : (0 : ℝ) < M := by exact_mod_cast (by omega : 0 < M)
  unfold gridFn
  rw [neg_lt_neg_iff]
  have hjr : (j : ℝ) + 1 ≤ 2 * M := by exact_mod_cast hj
  have hijr : (i : ℝ) < j := by exact_mod_cast hij
  have h0 : (0 : ℝ) ≤ i := by positivity
  apply cos_lt_cos_of_nonneg_of_le_pi
  · positivity
  · rw [div_le_iff₀ (by positivity)]; nlinarith [pi_pos]
  · rw [div_lt_div_iff_of_pos_right (by positivity)]; nlinarith [pi_pos]

/-- The rule of any order above the number of grid points asks for a point outside the grid. -/
theorem cheby_fails (c : Hough.Cfg) (hM : 1 ≤ c.M) (op : Opts) (ho : 2 ≤ op.orderMul) (f : List ℝ) :
    cheby op f (grid c) = none := by
  unfold cheby
  have hlen : (grid c).length = 2 * c.M := by rw [grid_eq]; simp [tab]
  rw [hlen]
  set q := op.orderMul * (2 * c.M) with hq
  have hqM : 2 * (2 * c.M) ≤ q := Nat.mul_le_mul_right _ ho
  refine C47_failure _ q (q - 1) (by omega) ?_
  refine interp1d_below _ _ _ ?_
  intro x hx
  rw [grid_eq] at hx
  simp only [tab, List.mem_map, List.mem_range] at hx
  obtain ⟨j, hj, rfl⟩ := hx
  have h0 : gridFn c.M 0 ≤ gridFn c.M j := by
    rcases Nat.eq_zero_or_pos j with rfl | hp
    · exact le_refl _
    · exact (gridFn_mono c.M 0 j hp hj).le
  refine lt_of_lt_of_le ?_ h0
  have hMr : (1 : ℝ) ≤ c.M := by exact_mod_cast hM
  have hqr : 2 * (2 * (c.M : ℝ)) ≤ q := by exact_mod_cast hqM
  have hqp : (0 : ℝ) < q := by linarith
  have e : (2 * ((q - 1 : ℕ) : ℝ) + 1) / (2 * q) * π = π - π / (2 * q) := by
    rw [Nat.cast_sub (by omega)]; push_cast; field_simp; ring
  rw [e, cos_pi_sub]
  unfold gridFn
  rw [neg_lt_neg_iff]
  apply cos_lt_cos_of_nonneg_of_le_pi
  · positivity
  · rw [div_le_iff₀ (by positivity)]; push_cast; nlinarith [pi_pos]
  · rw [div_lt_div_iff₀ (by positivity) (by positivity)]; push_cast; nlinarith [pi_pos]

/-- **C64 refuted.** On the collocation grid the option to integrate by Chebyshev-Gauss quadrature ends
the program for every integrand and every order multiplier of at least two (the default is four):
the rule needs points closer to the poles than any grid point. -/
theorem C64_always_exits_wrong (o : Obj) (c : Hough.Cfg) (hM : 1 ≤ c.M) (hmu : o.mu = grid c) (descrips : List String)
    (p : List ℝ) (hp : product o descrips = some p) (hl : p.length = 2 * c.M) (op : Opts)
    (hu : op.useCheby = true) (ho : 2 ≤ op.orderMul) : thetaIntegral o descrips op = .exited := by
  have hlen : (grid c).length = 2 * c.M := by rw [grid_eq]; simp [tab]
  unfold thetaIntegral
  rw [hp]
  simp only [hmu, hlen, hl, ne_eq, not_true_eq_false, if_false, hu, if_true]
  rw [cheby_fails c hM op ho]

/-- **C64 refuted.** Likewise the blow-up protection never changes a result. -/
theorem C64_protection_idle_wrong (o : Obj) (c : Hough.Cfg) (hM : 1 ≤ c.M) (hmu : o.mu = grid c) (descrips : List String)
    (op : Opts) (ho : 2 ≤ op.orderMul) :
    thetaIntegral o descrips { op with protect := true } = thetaIntegral o descrips { op with protect := false } := by
  unfold thetaIntegral
  cases product o descrips with
  | none => rfl
  | some p =>
    simp only [hmu]
    have hc : ∀ f b, cheby { op with protect := b } f (grid c) = none := fun f b => cheby_fails c hM _ ho f
    simp only [hc]
    split
    · rfl
    · split
      · rfl
      · split
        · rfl
        · simp

/-- **C64**, order multiplier one: the points are the grid points, and the option returns `π/(2M)` times
the sum of the integrand over the grid, times `sqrt(1-mu²)` unless the integral has the factor
`1/sin(theta)`.  Missing: larger multipliers, for which the claim is false. -/
theorem C64_multiplier_one_partial (c : Hough.Cfg) (hM : 1 ≤ c.M) (op : Opts) (ho : op.orderMul = 1) (f : ℕ → ℝ) :
    cheby op (tab (2 * c.M) f) (grid c) =
      some (π / (2 * c.M) * ∑ j ∈ range (2 * c.M),
        if op.divBySin then f j else f j * √(1 - gridFn c.M j ^ 2)) := by
  have hlen : (grid c).length = 2 * c.M := by rw [grid_eq]; simp [tab]
  set y : ℕ → ℝ := fun j => if op.divBySin then f j else f j * √(1 - gridFn c.M j ^ 2) with hy
  have hyl : (if op.divBySin then tab (2 * c.M) f else arrMul (tab (2 * c.M) f) (sinArr (grid c))) = tab (2 * c.M) y := by
    by_cases hd : op.divBySin = true
    · simp [hd, hy]
    · rw [grid_eq]
      simp only [hd, hy, tab, arrMul, sinArr, List.map_map]
      apply List.ext_getElem (by simp)
      intro i h1 h2
      simp
  have hn : ∀ k (hk : k < 2 * c.M), interp1d (grid c) (tab (2 * c.M) y) (gridFn c.M k) = some (y k) := by
    intro k hk
    rw [grid_eq]
    have hpw : (tab (2 * c.M) (gridFn c.M)).Pairwise (· < ·) := by
      unfold tab
      rw [List.pairwise_map]
      refine List.Pairwise.imp_of_mem ?_ List.pairwise_lt_range
      intro a b _ hb hab
      exact gridFn_mono c.M a b hab (List.mem_range.1 hb)
    have := interp1d_node (tab (2 * c.M) (gridFn c.M)) (tab (2 * c.M) y) hpw (by simp [tab]) (by simp [tab]; omega) k
      (by simp [tab]; omega)
    simpa [tab] using this
  have hMr : (0 : ℝ) < c.M := by exact_mod_cast hM
  have hpt : ∀ i, i < 2 * c.M → cos (mod2pi (cgAngle (2 * c.M) (i + 1))) = gridFn c.M (2 * c.M - 1 - i) := by
    intro i hi
    rw [cg_point _ _ hi]
    unfold gridFn
    rw [← cos_pi_sub]
    congr 1
    rw [Nat.cast_sub (by omega), Nat.cast_sub (by omega)]
    push_cast
    field_simp
    ring
  unfold cheby chebyshevGauss
  simp only [ho, one_mul, hlen, hyl]
  have hm : (List.range (2 * c.M)).mapM (fun i => interp1d (grid c) (tab (2 * c.M) y) (cos (mod2pi (cgAngle (2 * c.M) (i + 1))))) =
      some ((List.range (2 * c.M)).map fun i => y (2 * c.M - 1 - i)) := by
    have : ∀ l : List ℕ, (∀ i ∈ l, i < 2 * c.M) →
        l.mapM (fun i => interp1d (grid c) (tab (2 * c.M) y) (cos (mod2pi (cgAngle (2 * c.M) (i + 1))))) =
        some (l.map fun i => y (2 * c.M - 1 - i)) := by
      intro l
      induction l with
      | nil => intro _; rfl
      | cons a l ih =>
        intro h
        rw [List.mapM_cons, ih (fun i hi => h i (by simp [hi])), hpt a (h a (by simp)), hn _ (by have := h a (by simp); omega)]
        rfl
    exact this _ (fun i hi => List.mem_range.1 hi)
  rw [hm]
  simp only [Option.map_some, Option.some.injEq, List.map_map]
  have hsum : ((List.range (2 * c.M)).map ((fun v => π / ((2 * c.M : ℕ) : ℝ) * v) ∘ fun i => y (2 * c.M - 1 - i))).sum =
      ∑ i ∈ range (2 * c.M), π / ((2 * c.M : ℕ) : ℝ) * y (2 * c.M - 1 - i) := by
    rw [Finset.sum_range, ← List.sum_ofFn]
    congr 1
    apply List.ext_getElem (by simp)
    intro i h1 h2
    simp
  rw [hsum, ← mul_sum, Finset.sum_range_reflect y (2 * c.M)]
  push_cast
  rfl

end
end Verif.AngInt
