import Verif.Coupling.Norms
import Mathlib.Analysis.Complex.Basic
/-!
# C173: complex eigenfunctions in the radial integrals

Non-adiabatic eigenfunctions are complex arrays (`carr_conv.py` 9-30).  `quadratic_solver.py` 504-507 says that the
computations use "either complex-valued eigenfunctions, or their real parts", the option `use_complex` deciding.
Here: the radial integrals and the mode energies of `quadratic_coupling_coefficient_rotating.py` for complex radial
functions, in exact arithmetic.
-/
namespace Verif.Coupling
noncomputable section
open NumInt NumInt.Spec

/-- The object with complex radial functions: `obj` holds everything else. -/
structure CObj where
  obj : Obj
  /-- the complex array stored under the name of a radial function, if there is one -/
  cattr : String → Option (List ℂ)
  /-- `_use_complex` -/
  useComplex : Bool

/-- The attribute `shape` of the value of `cni.integrate` (`libcpp_num_integrator.pyx` 22-50: a C double, that is a
Python float): a float has no such attribute. -/
def floatShape (_ : ℝ) : Option ℕ := none

/-- `_compute_radial_integral_complex` (lines 1273-1306). -/
def radintComplex (o : CObj) (integrand : List ℂ) (var : List ℝ) (idx : Option ℕ) : Option (List ℂ) := do
  let re ← radint o.obj (integrand.map Complex.re) var idx
  let im ← radint o.obj (integrand.map Complex.im) var idx
  let n ← floatShape im
  pure (List.replicate n ⟨re, im⟩)

/-- `_compute_radial_integral_real` (lines 1309-1334). -/
def radintReal (o : CObj) (integrand : List ℂ) (var : List ℝ) (idx : Option ℕ) : Option ℝ :=
  radint o.obj (integrand.map Complex.re) var idx

/-- `_radint` (lines 327-331): a float or an array. -/
def radintC (o : CObj) (integrand : List ℂ) (var : List ℝ) (idx : Option ℕ) : Option (ℝ ⊕ List ℂ) :=
  if o.useComplex then (radintComplex o integrand var idx).map .inr else (radintReal o integrand var idx).map .inl

/-- Element-wise products of complex arrays, and with a real array. -/
def cmul (a b : List ℂ) : List ℂ := List.zipWith (· * ·) a b
/-- See `cmul`. -/
def rmul (a : List ℂ) (b : List ℝ) : List ℂ := List.zipWith (fun (v : ℂ) (w : ℝ) => v * (w : ℂ)) a b

/-- `_rad_int` (lines 665-700), as `radInt` with complex arrays. -/
def radIntC (o : CObj) (t : Term) (mult : List ℝ) (idx : Option ℕ) : Option (ℝ ⊕ List ℂ) := do
  let p1 ← o.cattr (name t.1 1)
  let p2 ← o.cattr (name t.2.1 2)
  let p3 ← o.cattr (name t.2.2 3)
  if p2.length = p1.length ∧ p3.length = p1.length ∧ mult.length = p1.length ∧ o.obj.x.length = p1.length then
    radintC o (rmul (rmul (cmul (cmul p1 p2) p3) mult) (o.obj.x.map fun v => v ^ 2)) o.obj.x idx
  else none

/-- The radial integral of the mode norms (lines 1227-1233, 1374-1381), as `radNorm` with complex arrays: the array is
squared, not its modulus. -/
def radNormC (o : CObj) (r : String) (k : ℕ) : Option (ℝ ⊕ List ℂ) := do
  let p ← o.cattr (name r k)
  if p.length = o.obj.x.length ∧ o.obj.rhoNormed.length = o.obj.x.length then
    radintC o (rmul (p.map fun v => v ^ 2) (mul o.obj.rhoNormed (o.obj.x.map fun v => v ^ 2))) o.obj.x none
  else none

/-- A float.  The arithmetic with arrays is not modelled; it is never reached (`C173_complex_wrong`). -/
def float : ℝ ⊕ List ℂ → Option ℝ
  | .inl v => some v
  | .inr _ => none

/-- `_compute_traditional_norms_modes` (lines 1188-1237), as `classicNorm`. -/
def classicNormC (o : CObj) (k : ℕ) : Option ℝ := do
  let a1 ← angNorm o.obj "hr" "hr" k false (.flag false)
  let r1 ← (radNormC o "_x_z_1" k).bind float
  let a2 ← angNorm o.obj "ht" "ht" k false (.flag false)
  let r2 ← (radNormC o "_x_z_2_over_c_1_omega" k).bind float
  let a3 ← angNorm o.obj "hp" "hp" k false (.flag false)
  let r3 ← (radNormC o "_x_z_2_over_c_1_omega" k).bind float
  pure ((a1 * r1 + a2 * r2 + a3 * r3) * 2 * Real.pi)

/-- `compute_b_a_mode_energy` (lines 1344-1399), as `modeEnergy`. -/
def modeEnergyC (o : CObj) (omegaRot omega : ℝ) (k : ℕ) : Option (ℝ × ℝ) := do
  let n ← classicNormC o k
  let a ← angNorm o.obj "ht" "hp" k true .none
  let r ← (radNormC o "_x_z_2_over_c_1_omega" k).bind float
  let b := (r * a * 8 * Real.pi * omegaRot + 2 * omega * n) * (o.obj.normRho * o.obj.R ^ 5)
  pure (b, omega * b)

/-! ## Specification -/

/-- The object in which the radial functions are the real parts. -/
def Spec.realParts (o : CObj) : Obj :=
  { o.obj with attr := fun a => match o.cattr a with
      | some v => some (v.map Complex.re)
      | none => o.obj.attr a }

/-- The trapezoidal integral of a complex function over the grid `ξ`. -/
def Spec.integral (n : ℕ) (ξ : ℕ → ℝ) (f : ℕ → ℂ) : ℂ := trapSum n (fun i => (ξ i : ℂ)) f

/-- The same modes with the eigenfunctions of mode `k` multiplied by the number `u`. -/
structure Spec.Scaled (k : ℕ) (u : ℂ) (o o' : CObj) : Prop where
  obj : o'.obj = o.obj
  opt : o'.useComplex = o.useComplex
  mode : ∀ r, o'.cattr (name r k) = (o.cattr (name r k)).map fun l => l.map fun v => u * v

/-! ## Proofs -/

theorem integral_re (n : ℕ) (ξ : ℕ → ℝ) (f : ℕ → ℂ) : (Spec.integral n ξ f).re = trapSum n ξ fun i => (f i).re := by
  unfold Spec.integral trapSum
  rw [Complex.re_sum]
  refine Finset.sum_congr rfl fun i _ => ?_
  rw [show ((ξ (i + 1) : ℂ) - ξ i) * (f i + f (i + 1)) / 2 = (((ξ (i + 1) - ξ i) / 2 : ℝ) : ℂ) * (f i + f (i + 1)) by
    push_cast; ring, Complex.re_ofReal_mul, Complex.add_re]
  ring

theorem trapSum_sub (n : ℕ) (ξ f g : ℕ → ℝ) : trapSum n ξ (fun i => f i - g i) = trapSum n ξ f - trapSum n ξ g := by
  unfold trapSum
  rw [← Finset.sum_sub_distrib]
  exact Finset.sum_congr rfl fun i _ => by ring

theorem trapSum_congr {n : ℕ} {ξ f g : ℕ → ℝ} (h : ∀ i < n, f i = g i) : trapSum n ξ f = trapSum n ξ g := by
  unfold trapSum
  refine Finset.sum_congr rfl fun i hi => ?_
  rw [Finset.mem_range] at hi
  rw [h i (by omega), h (i + 1) (by omega)]

/-- **C173 refuted** for `use_complex`: every radial integral and every mode energy of complex eigenfunctions fails. -/
theorem C173_complex_wrong (o : CObj) (h : o.useComplex = true) :
    (∀ t mult idx, radIntC o t mult idx = none) ∧ (∀ r k, radNormC o r k = none) ∧
    ∀ k omegaRot omega, modeEnergyC o omegaRot omega k = none := by
  have key : ∀ f v idx, radintC o f v idx = none := by
    intro f v idx
    simp only [radintC, h, if_true, radintComplex, floatShape, Option.bind_eq_bind, Option.bind_none, Option.bind_fun_none,
      Option.map_none]
  have hn : ∀ r k, radNormC o r k = none := by
    intro r k
    simp only [radNormC, key, ite_self, Option.bind_eq_bind, Option.bind_fun_none]
  refine ⟨fun t mult idx => ?_, hn, fun k a b => ?_⟩
  · simp only [radIntC, key, ite_self, Option.bind_eq_bind, Option.bind_fun_none]
  · simp only [modeEnergyC, classicNormC, hn, Option.bind_eq_bind, Option.bind_none, Option.bind_fun_none]

theorem radintReal_tab (o : CObj) (n : ℕ) (f : ℕ → ℂ) (ξ : ℕ → ℝ) (h : o.useComplex = false) :
    radintC o (tab n f) (tab n ξ) none = some (.inl (Spec.integral n ξ f).re) ∧
    ∀ i, radintC o (tab n f) (tab n ξ) (some i) = some (.inl (Spec.integral (min i n) ξ f).re) := by
  have e : (tab n f).map Complex.re = tab n fun i => (f i).re := by simp [tab]
  simp only [radintC, h, radintReal, e, radint_tab, radint_cut, integral_re]
  exact ⟨rfl, fun i => rfl⟩

variable {o : CObj} {n : ℕ} {ξ : ℕ → ℝ}

theorem sq_tab (ξ : ℕ → ℝ) : (tab n ξ).map (fun v => v ^ 2) = tab n fun j => ξ j ^ 2 := by simp [tab]

theorem cmul_tab (f g : ℕ → ℂ) : cmul (tab n f) (tab n g) = tab n fun i => f i * g i := by
  simp [cmul, tab, List.zipWith_map, List.zipWith_self]

theorem rmul_tab (f : ℕ → ℂ) (g : ℕ → ℝ) : rmul (tab n f) (tab n g) = tab n fun i => f i * (g i : ℂ) := by
  simp [rmul, tab, List.zipWith_map, List.zipWith_self]

/-- **C173 (the value).**  Without `use_complex` a radial factor is the real part of the integral of the product of the
complex functions. -/
theorem C173_value (h : o.useComplex = false) (hx : o.obj.x = tab n ξ) (t : Term) (p : Fin 3 → ℕ → ℂ) (M : ℕ → ℝ)
    (h1 : o.cattr (name t.1 1) = some (tab n (p 0))) (h2 : o.cattr (name t.2.1 2) = some (tab n (p 1)))
    (h3 : o.cattr (name t.2.2 3) = some (tab n (p 2))) :
    radIntC o t (tab n M) none =
      some (.inl (Spec.integral n ξ fun j => p 0 j * p 1 j * p 2 j * (M j * ξ j ^ 2 : ℝ)).re) ∧
    ∀ i, radIntC o t (tab n M) (some i) =
      some (.inl (Spec.integral (min i n) ξ fun j => p 0 j * p 1 j * p 2 j * (M j * ξ j ^ 2 : ℝ)).re) := by
  have e : (fun j => p 0 j * p 1 j * p 2 j * (M j : ℂ) * ((ξ j ^ 2 : ℝ) : ℂ)) =
      fun j => p 0 j * p 1 j * p 2 j * (M j * ξ j ^ 2 : ℝ) := by
    funext j; push_cast; ring
  simp only [radIntC, h1, h2, h3, hx, Option.bind_eq_bind, Option.bind_some, length_tab, sq_tab, cmul_tab, rmul_tab, e,
    and_self, if_true]
  exact radintReal_tab o n _ ξ h

/-- **C173 (exactly when).**  Without `use_complex` the radial factor is the one of the real parts exactly when the
integral of the products of one real part and two imaginary parts vanishes. -/
theorem C173_real_parts_exact (h : o.useComplex = false) (hx : o.obj.x = tab n ξ) (t : Term) (p : Fin 3 → ℕ → ℂ)
    (M : ℕ → ℝ) (h1 : o.cattr (name t.1 1) = some (tab n (p 0))) (h2 : o.cattr (name t.2.1 2) = some (tab n (p 1)))
    (h3 : o.cattr (name t.2.2 3) = some (tab n (p 2))) :
    radIntC o t (tab n M) none = (radInt (Spec.realParts o) t (tab n M) none).map .inl ↔
      trapSum n ξ (fun j => ((p 0 j).re * (p 1 j).im * (p 2 j).im + (p 0 j).im * (p 1 j).re * (p 2 j).im +
        (p 0 j).im * (p 1 j).im * (p 2 j).re) * (M j * ξ j ^ 2)) = 0 := by
  have er : ∀ f : ℕ → ℂ, (tab n f).map Complex.re = tab n fun i => (f i).re := fun f => by simp [tab]
  have hr := (C50_radial (Spec.realParts o) t n (fun j => (p 0 j).re) (fun j => (p 1 j).re) (fun j => (p 2 j).re) M ξ hx
    (by simp only [Spec.realParts, h1, er]) (by simp only [Spec.realParts, h2, er])
    (by simp only [Spec.realParts, h3, er])).1
  rw [hr, (C173_value h hx t p M h1 h2 h3).1, integral_re]
  simp only [Option.map_some, Option.some_inj, Sum.inl.injEq]
  rw [← sub_eq_zero, ← trapSum_sub]
  have e : trapSum n ξ (fun i => (p 0 i * p 1 i * p 2 i * (M i * ξ i ^ 2 : ℝ)).re -
      (p 0 i).re * (p 1 i).re * (p 2 i).re * M i * ξ i ^ 2) =
      -trapSum n ξ (fun j => ((p 0 j).re * (p 1 j).im * (p 2 j).im + (p 0 j).im * (p 1 j).re * (p 2 j).im +
        (p 0 j).im * (p 1 j).im * (p 2 j).re) * (M j * ξ j ^ 2)) := by
    rw [trapSum, trapSum, ← Finset.sum_neg_distrib]
    refine Finset.sum_congr rfl fun i _ => ?_
    rw [Complex.re_mul_ofReal, Complex.re_mul_ofReal]
    simp only [Complex.mul_re, Complex.mul_im]
    ring
  rw [e, neg_eq_zero]

/-- **C173 (proved part).**  Without `use_complex`, when at every grid point at most one of the three functions has an
imaginary part (adiabatic modes have none), the radial factor is the one of the real parts. -/
theorem C173_real_parts_partial (h : o.useComplex = false) (hx : o.obj.x = tab n ξ) (t : Term) (p : Fin 3 → ℕ → ℂ)
    (M : ℕ → ℝ) (h1 : o.cattr (name t.1 1) = some (tab n (p 0))) (h2 : o.cattr (name t.2.1 2) = some (tab n (p 1)))
    (h3 : o.cattr (name t.2.2 3) = some (tab n (p 2)))
    (hi : ∀ j < n, ∃ a, ∀ b, b ≠ a → (p b j).im = 0) :
    radIntC o t (tab n M) none = (radInt (Spec.realParts o) t (tab n M) none).map .inl := by
  rw [C173_real_parts_exact h hx t p M h1 h2 h3]
  have : trapSum n ξ (fun j => ((p 0 j).re * (p 1 j).im * (p 2 j).im + (p 0 j).im * (p 1 j).re * (p 2 j).im +
        (p 0 j).im * (p 1 j).im * (p 2 j).re) * (M j * ξ j ^ 2)) = trapSum n ξ fun _ => 0 := by
    refine trapSum_congr fun j hj => ?_
    obtain ⟨a, ha⟩ := hi j hj
    fin_cases a
    · rw [ha 1 (by decide), ha 2 (by decide)]; ring
    · rw [ha 0 (by decide), ha 2 (by decide)]; ring
    · rw [ha 0 (by decide), ha 1 (by decide)]; ring
  rw [this]
  simp [trapSum]

theorem norm_value (h : o.useComplex = false) (hx : o.obj.x = tab n ξ) (r : String) (k : ℕ) (p : ℕ → ℂ) (ρ : ℕ → ℝ)
    (hρ : o.obj.rhoNormed = tab n ρ) (hp : o.cattr (name r k) = some (tab n p)) :
    radNormC o r k = some (.inl (Spec.integral n ξ fun j => p j ^ 2 * (ρ j * ξ j ^ 2 : ℝ)).re) := by
  have e : (tab n p).map (fun v => v ^ 2) = tab n fun j => p j ^ 2 := by simp [tab]
  simp only [radNormC, hp, hx, hρ, Option.bind_eq_bind, Option.bind_some, length_tab, sq_tab, mul_tab, e, rmul_tab,
    and_self, if_true]
  exact (radintReal_tab o n _ ξ h).1

theorem trapSum_zero_iff {ξ f : ℕ → ℝ} (hn : 2 ≤ n) (hξ : ∀ i, i + 1 < n → ξ i < ξ (i + 1)) (hf : ∀ i < n, 0 ≤ f i) :
    trapSum n ξ f = 0 ↔ ∀ i < n, f i = 0 := by
  unfold trapSum
  have h0 : ∀ i ∈ Finset.range (n - 1), 0 ≤ (ξ (i + 1) - ξ i) * (f i + f (i + 1)) / 2 := by
    intro i hi
    rw [Finset.mem_range] at hi
    have a := hξ i (by omega)
    have b := hf i (by omega)
    have c := hf (i + 1) (by omega)
    have : 0 ≤ ξ (i + 1) - ξ i := by linarith
    positivity
  rw [Finset.sum_eq_zero_iff_of_nonneg h0]
  have key : ∀ i, i + 1 < n → ((ξ (i + 1) - ξ i) * (f i + f (i + 1)) / 2 = 0 ↔ f i = 0 ∧ f (i + 1) = 0) := by
    intro i hi
    have a := hξ i hi
    have b := hf i (by omega)
    have c := hf (i + 1) hi
    constructor
    · intro hz
      have h1 : ξ (i + 1) - ξ i ≠ 0 := by linarith
      have h2 : (ξ (i + 1) - ξ i) * (f i + f (i + 1)) = 0 := by linarith
      have h3 := (mul_eq_zero.1 h2).resolve_left h1
      constructor <;> linarith
    · rintro ⟨d, e⟩
      rw [d, e]; ring
  constructor
  · intro hz i hi
    rcases Nat.lt_or_ge (i + 1) n with h | h
    · exact ((key i h).1 (hz i (Finset.mem_range.2 (by omega)))).1
    · obtain ⟨j, rfl⟩ : ∃ j, i = j + 1 := ⟨i - 1, by omega⟩
      exact ((key j hi).1 (hz j (Finset.mem_range.2 (by omega)))).2
  · intro hz i hi
    rw [Finset.mem_range] at hi
    exact (key i (by omega)).2 ⟨hz i (by omega), hz (i + 1) (by omega)⟩

/-- **C173 refuted** for the norms: on an increasing grid of positive radii with positive densities, the radial
integral of a norm is the one of the real parts only when the function is real at every grid point. -/
theorem C173_norm_wrong (h : o.useComplex = false) (hx : o.obj.x = tab n ξ) (r : String) (k : ℕ) (p : ℕ → ℂ)
    (ρ : ℕ → ℝ) (hρ : o.obj.rhoNormed = tab n ρ) (hp : o.cattr (name r k) = some (tab n p)) (hn : 2 ≤ n)
    (hξ : ∀ i, i + 1 < n → ξ i < ξ (i + 1)) (h0 : ∀ i < n, 0 < ξ i) (hpos : ∀ i < n, 0 < ρ i) :
    radNormC o r k = (radNorm (Spec.realParts o) r k).map .inl ↔ ∀ i < n, (p i).im = 0 := by
  have e : (tab n p).map Complex.re = tab n fun j => (p j).re := by simp [tab]
  have hr : radNorm (Spec.realParts o) r k = some (trapSum n ξ fun j => ρ j * ξ j ^ 2 * (p j).re ^ 2) := by
    have ha : (Spec.realParts o).attr (name r k) = some (tab n fun j => (p j).re) := by
      simp only [Spec.realParts, hp, e]
    have hx' : (Spec.realParts o).x = tab n ξ := hx
    have hρ' : (Spec.realParts o).rhoNormed = tab n ρ := hρ
    simp only [radNorm, ha, hx', hρ', Option.bind_eq_bind, Option.bind_some, length_tab, sq_tab, mul_tab, and_self, if_true]
    exact radint_tab _ n _ ξ
  rw [hr, norm_value h hx r k p ρ hρ hp, integral_re]
  simp only [Option.map_some, Option.some_inj, Sum.inl.injEq]
  rw [eq_comm, ← sub_eq_zero, ← trapSum_sub]
  have e2 : (fun i => ρ i * ξ i ^ 2 * (p i).re ^ 2 - (p i ^ 2 * (ρ i * ξ i ^ 2 : ℝ)).re) =
      fun i => ρ i * ξ i ^ 2 * (p i).im ^ 2 := by
    funext i
    rw [Complex.re_mul_ofReal, pow_two (p i), Complex.mul_re]
    ring
  rw [e2, trapSum_zero_iff hn hξ fun i hi => by have := hpos i hi; positivity]
  refine forall₂_congr fun i hi => ?_
  have a := hpos i hi
  have b := h0 i hi
  have : ρ i * ξ i ^ 2 ≠ 0 := by positivity
  rw [mul_eq_zero, or_iff_right this, pow_eq_zero_iff two_ne_zero]

theorem radintReal_neg (o : CObj) (f : List ℂ) (v : List ℝ) (hl : f.length = v.length) (h : o.useComplex = false) :
    radintC o (f.map fun z => -z) v none = (radintC o f v none).map (Sum.map (fun a => -a) id) := by
  have e1 := tab_surj f 0
  have e2 := tab_surj v 0
  rw [← hl] at e2
  have e3 : f.map (fun z => -z) = tab f.length fun i => -f.getD i 0 := by
    conv_lhs => rw [e1]
    simp [tab]
  rw [e3]
  conv_rhs => rw [e1]
  rw [e2, (radintReal_tab o _ _ _ h).1, (radintReal_tab o _ _ _ h).1]
  simp only [Option.map_some, Sum.map_inl, integral_re, Complex.neg_re]
  congr 2
  unfold trapSum
  rw [← Finset.sum_neg_distrib]
  exact Finset.sum_congr rfl fun i _ => by ring

theorem radNormC_phase {o o' : CObj} {k : ℕ} (hs : Spec.Scaled k Complex.I o o') (h : o.useComplex = false) (r : String) :
    radNormC o' r k = (radNormC o r k).map (Sum.map (fun a => -a) id) := by
  have hc : ∀ f v idx, radintC o' f v idx = radintC o f v idx := by
    intro f v idx
    simp only [radintC, radintComplex, radintReal, hs.obj, hs.opt]
  simp only [radNormC, hs.mode, hs.obj, hc, Option.bind_eq_bind]
  cases hp : o.cattr (name r k) with
  | none => rfl
  | some p =>
    simp only [Option.map_some, Option.bind_some, List.length_map]
    split_ifs with hl
    · have e : rmul ((p.map fun v => Complex.I * v).map fun v => v ^ 2) (mul o.obj.rhoNormed (o.obj.x.map fun v => v ^ 2)) =
          (rmul (p.map fun v => v ^ 2) (mul o.obj.rhoNormed (o.obj.x.map fun v => v ^ 2))).map fun z => -z := by
        unfold rmul
        rw [List.map_map, List.zipWith_map_left, List.zipWith_map_left, List.map_zipWith]
        refine congrArg (fun f => List.zipWith f p _) ?_
        funext v w
        simp only [Function.comp, mul_pow, Complex.I_sq]
        ring
      rw [e, radintReal_neg o _ _ _ h]
      simp [rmul, mul, hl.1, hl.2]
    · rfl

/-- **C173 refuted** for the energies: multiplying the eigenfunctions of a mode by the phase `i`, which gives the same
mode, negates its classic norm, its factor `b` and its energy. -/
theorem C173_phase_wrong {o o' : CObj} {k : ℕ} (hs : Spec.Scaled k Complex.I o o') (h : o.useComplex = false)
    (omegaRot omega : ℝ) : classicNormC o' k = (classicNormC o k).map (fun a => -a) ∧
    modeEnergyC o' omegaRot omega k = (modeEnergyC o omegaRot omega k).map fun e => (-e.1, -e.2) := by
  have hb : ∀ r, (radNormC o' r k).bind float = ((radNormC o r k).bind float).map fun a => -a := by
    intro r
    rw [radNormC_phase hs h]
    rcases radNormC o r k with _ | _ | _ <;> rfl
  have hc : classicNormC o' k = (classicNormC o k).map fun a => -a := by
    simp only [classicNormC, hb, hs.obj, Option.bind_eq_bind, pure]
    cases angNorm o.obj "hr" "hr" k false (.flag false) <;> [rfl; skip]
    cases (radNormC o "_x_z_1" k).bind float <;> [rfl; skip]
    cases angNorm o.obj "ht" "ht" k false (.flag false) <;> [rfl; skip]
    cases (radNormC o "_x_z_2_over_c_1_omega" k).bind float <;> [rfl; skip]
    cases angNorm o.obj "hp" "hp" k false (.flag false) <;> [rfl; skip]
    simp only [Option.bind_some, Option.map_some, Option.some_inj]
    ring
  refine ⟨hc, ?_⟩
  simp only [modeEnergyC, hc, hb, hs.obj, Option.bind_eq_bind, pure]
  cases classicNormC o k <;> [rfl; skip]
  cases angNorm o.obj "ht" "hp" k true .none <;> [rfl; skip]
  cases (radNormC o "_x_z_2_over_c_1_omega" k).bind float <;> [rfl; skip]
  simp only [Option.bind_some, Option.map_some, Option.some_inj, Prod.mk.injEq]
  constructor <;> ring

theorem angNorm_realParts (o : CObj) (d1 d2 : String) (k : ℕ) (mm : Bool) (conj : AngInt.Conj)
    (h1 : o.cattr (name ("_" ++ d1) k) = none) (h2 : o.cattr (name ("_" ++ d2) k) = none) :
    angNorm (Spec.realParts o) d1 d2 k mm conj = angNorm o.obj d1 d2 k mm conj := by
  have e1 : (Spec.realParts o).attr (name ("_" ++ d1) k) = o.obj.attr (name ("_" ++ d1) k) := by
    simp only [Spec.realParts, h1]
  have e2 : (Spec.realParts o).attr (name ("_" ++ d2) k) = o.obj.attr (name ("_" ++ d2) k) := by
    simp only [Spec.realParts, h2]
  have hp : AngInt.product (angObj (Spec.realParts o)) [name ("_" ++ d1) k, name ("_" ++ d2) k] =
      AngInt.product (angObj o.obj) [name ("_" ++ d1) k, name ("_" ++ d2) k] := by
    rw [product_two, product_two]
    simp only [angObj, e1, e2]
  simp only [angNorm, AngInt.angularIntegral, AngInt.thetaIntegral, hp]
  rfl

theorem re_list (p : List ℂ) (w : List ℝ) (hp : ∀ z ∈ p, z.im = 0) :
    (rmul (p.map fun v => v ^ 2) w).map Complex.re = mul w ((p.map Complex.re).map fun v => v ^ 2) := by
  induction p generalizing w with
  | nil => simp [rmul, mul]
  | cons z p ih =>
    cases w with
    | nil => simp [rmul, mul]
    | cons a w =>
      have h1 := ih w fun y hy => hp y (List.mem_cons_of_mem _ hy)
      have h2 := hp z List.mem_cons_self
      simp only [rmul, mul, List.map_cons, List.zipWith_cons_cons, List.cons.injEq] at h1 ⊢
      refine ⟨?_, h1⟩
      rw [Complex.re_mul_ofReal, pow_two z, Complex.mul_re, h2]
      ring

theorem radNormC_real (o : CObj) (r : String) (k : ℕ) (h : o.useComplex = false) (p : List ℂ)
    (hp : o.cattr (name r k) = some p) (hi : ∀ z ∈ p, z.im = 0) :
    radNormC o r k = (radNorm (Spec.realParts o) r k).map .inl := by
  have ha : (Spec.realParts o).attr (name r k) = some (p.map Complex.re) := by simp only [Spec.realParts, hp]
  simp only [radNormC, radNorm, hp, ha, Option.bind_eq_bind, Option.bind_some, List.length_map]
  change (if p.length = o.obj.x.length ∧ o.obj.rhoNormed.length = o.obj.x.length then _ else none) =
    Option.map _ (if p.length = o.obj.x.length ∧ o.obj.rhoNormed.length = o.obj.x.length then _ else none)
  split_ifs
  · simp only [radintC, h, radintReal, re_list p _ hi]
    rfl
  · rfl

/-- **C173 (proved part, energies).**  When the radial functions of a mode are real (as those of adiabatic modes), its
classic norm, its factor `b` and its energy are those of the real parts (which C69 evaluates). -/
theorem C173_energy_partial (o : CObj) (k : ℕ) (h : o.useComplex = false)
    (hr : ∀ r ∈ ["_x_z_1", "_x_z_2_over_c_1_omega"], ∃ p, o.cattr (name r k) = some p ∧ ∀ z ∈ p, z.im = 0)
    (ha : ∀ d ∈ ["hr", "ht", "hp"], o.cattr (name ("_" ++ d) k) = none) (omegaRot omega : ℝ) :
    classicNormC o k = classicNorm (Spec.realParts o) k ∧
    modeEnergyC o omegaRot omega k = modeEnergy (Spec.realParts o) omegaRot omega k := by
  have hn : ∀ r ∈ ["_x_z_1", "_x_z_2_over_c_1_omega"],
      (radNormC o r k).bind float = radNorm (Spec.realParts o) r k := by
    intro r hm
    obtain ⟨p, hp, hi⟩ := hr r hm
    rw [radNormC_real o r k h p hp hi]
    cases radNorm (Spec.realParts o) r k <;> rfl
  have han : ∀ d1 ∈ ["hr", "ht", "hp"], ∀ d2 ∈ ["hr", "ht", "hp"], ∀ mm conj,
      angNorm o.obj d1 d2 k mm conj = angNorm (Spec.realParts o) d1 d2 k mm conj :=
    fun d1 h1 d2 h2 mm conj => (angNorm_realParts o d1 d2 k mm conj (ha d1 h1) (ha d2 h2)).symm
  have hc : classicNormC o k = classicNorm (Spec.realParts o) k := by
    unfold classicNormC classicNorm
    rw [hn _ (by decide), hn _ (by decide), han _ (by decide) _ (by decide), han _ (by decide) _ (by decide),
      han _ (by decide) _ (by decide)]
  refine ⟨hc, ?_⟩
  unfold modeEnergyC modeEnergy
  rw [hc, hn _ (by decide), han _ (by decide) _ (by decide)]
  rfl

/-- Non-vacuity: there are real modes with a nonzero norm, the hypotheses of `C173_energy_partial` and
`C173_phase_wrong` hold for one and its multiple by `i`, and the norm of the latter is the negative one. -/
example : ∃ o o' : CObj, o.useComplex = false ∧ Spec.Scaled 1 Complex.I o o' ∧
    (∀ r ∈ ["_x_z_1", "_x_z_2_over_c_1_omega"], ∃ p, o.cattr (name r 1) = some p ∧ ∀ z ∈ p, z.im = 0) ∧
    (∀ d ∈ ["hr", "ht", "hp"], o.cattr (name ("_" ++ d) 1) = none) ∧
    ∃ v, v ≠ 0 ∧ classicNormC o 1 = some v ∧ classicNormC o' 1 = some (-v) := by
  obtain ⟨b, tr, tt, tp, tc, Rr, Rh, h1, h2, h3, h4, hr, hh, h0⟩ := exNorm
  let names := ["_x_z_1", "_x_z_2_over_c_1_omega"].map fun r => name r 1
  have hat : ∀ a ∈ names, ∃ p, b.attr a = some p := by
    intro a ha
    obtain ⟨r, hm, rfl⟩ := List.mem_map.1 ha
    cases hb : b.attr (name r 1) with
    | some p => exact ⟨p, rfl⟩
    | none =>
      simp only [List.mem_cons, List.not_mem_nil, or_false] at hm
      rcases hm with rfl | rfl
      · simp [radNorm, hb] at hr
      · simp [radNorm, hb] at hh
  let o : CObj := ⟨b, fun a => if a ∈ names then (b.attr a).map fun l => l.map fun v : ℝ => (v : ℂ) else none, false⟩
  let o' : CObj := ⟨b, fun a => (o.cattr a).map fun l => l.map fun v => Complex.I * v, false⟩
  have hre : Spec.realParts o = b := by
    have : (Spec.realParts o).attr = b.attr := by
      funext a
      by_cases ha : a ∈ names
      · obtain ⟨p, hp⟩ := hat a ha
        simp only [Spec.realParts, o, ha, if_true, hp, Option.map_some, List.map_map]
        congr 1
        conv_rhs => rw [← List.map_id p]
        exact List.map_congr_left fun x _ => Complex.ofReal_re x
      · simp only [Spec.realParts, o, ha, if_false]
    calc Spec.realParts o = { b with attr := (Spec.realParts o).attr } := rfl
      _ = b := by rw [this]
  have hs : Spec.Scaled 1 Complex.I o o' := ⟨rfl, rfl, fun r => rfl⟩
  have hreal : ∀ r ∈ ["_x_z_1", "_x_z_2_over_c_1_omega"], ∃ p, o.cattr (name r 1) = some p ∧ ∀ z ∈ p, z.im = 0 := by
    intro r hm
    have hmem : name r 1 ∈ names := List.mem_map_of_mem hm
    obtain ⟨p, hp⟩ := hat _ hmem
    refine ⟨p.map fun v : ℝ => (v : ℂ), by simp only [o, hmem, if_true, hp, Option.map_some], fun z hz => ?_⟩
    obtain ⟨v, -, rfl⟩ := List.mem_map.1 hz
    exact Complex.ofReal_im v
  have hang : ∀ d ∈ ["hr", "ht", "hp"], o.cattr (name ("_" ++ d) 1) = none := by
    intro d hd
    have : name ("_" ++ d) 1 ∉ names := by revert d; decide +kernel
    simp only [o, this, if_false]
  have hc := (C173_energy_partial o 1 rfl hreal hang 0 0).1
  rw [hre, (C69_norm_doubled_wrong b 1 tr tt tp Rr Rh h1 h2 h3 hr hh).1] at hc
  refine ⟨o, o', rfl, hs, hreal, hang, _, mul_ne_zero (by positivity) h0, hc, ?_⟩
  rw [(C173_phase_wrong hs rfl 0 0).1, hc]
  rfl

/-- Non-vacuity of `C173_norm_wrong`: two grid points and the function `1 + i`. -/
example : ∃ (o : CObj) (p : ℕ → ℂ), o.useComplex = false ∧ o.obj.x = tab 2 (fun i => (i : ℝ) + 1) ∧
    o.obj.rhoNormed = tab 2 (fun _ => 1) ∧ (∀ r k, o.cattr (name r k) = some (tab 2 p)) ∧ (p 0).im ≠ 0 := by
  refine ⟨⟨exObj (fun _ _ => []) 0 ![true, false, false], fun _ => some (tab 2 fun _ => ⟨1, 1⟩), false⟩, fun _ => ⟨1, 1⟩, rfl,
    ?_, ?_, fun _ _ => rfl, one_ne_zero⟩
  · simp [exObj, tab, List.range_succ]; norm_num
  · simp [exObj, tab, List.range_succ]

end
end Verif.Coupling
