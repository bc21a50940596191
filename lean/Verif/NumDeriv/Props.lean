import Verif.NumDeriv.Model
import Verif.Fornberg.Props
import Mathlib.Tactic.FieldSimp
import Mathlib.Tactic.LinearCombination
import Mathlib.Tactic.Positivity
import Mathlib.Tactic.IntervalCases
import Mathlib.Analysis.Calculus.Deriv.Pow
import Mathlib.Analysis.Calculus.Deriv.Add
import Mathlib.Analysis.Calculus.Deriv.Mul
/-! # C89-C91: numerical derivatives -/
namespace Verif.NumDeriv
noncomputable section
open Classical Polynomial

theorem at_map (x : List ℝ) (f : ℝ → ℝ) (k : ℕ) (hk : k < x.length) : at' (x.map f) k = f (at' x k) := by
  simp [at', List.getD, hk]

theorem at_lt (x : List ℝ) (hx : x.Pairwise (· < ·)) (i j : ℕ) (hij : i < j) (hj : j < x.length) : at' x i < at' x j := by
  have hi : i < x.length := by omega
  have := List.pairwise_iff_getElem.1 hx i j hi hj hij
  simpa [at', List.getD, hi, hj] using this

theorem map_eq_tab (x : List ℝ) (f : ℝ → ℝ) : x.map f = tab x.length fun i => f (at' x i) := by
  apply List.ext_getElem (by simp [tab])
  intro i h1 h2
  simp at h1
  simp [tab, at', List.getD, h1]

theorem tab_congr' {α : Type} {n : ℕ} {f g : ℕ → α} (h : ∀ i < n, f i = g i) : tab n f = tab n g :=
  List.map_congr_left fun i hi => h i (List.mem_range.1 hi)

/-- The quadratic function with the given coefficients, and its derivative. -/
def quad (a b c t : ℝ) : ℝ := a + b * t + c * t ^ 2
/-- Its derivative. -/
def quad' (b c t : ℝ) : ℝ := b + 2 * c * t

theorem quad_hasDeriv (a b c t : ℝ) : HasDerivAt (quad a b c) (quad' b c t) t := by
  have h1 := ((hasDerivAt_id t).const_mul b).const_add a
  have h2 := (hasDerivAt_pow 2 t).const_mul c
  refine HasDerivAt.congr_deriv (f' := _) (h := h1.add h2) ?_
  simp [quad']; ring

theorem left_exact (a b c p q r : ℝ) (h1 : p < q) (h2 : q < r) :
    (wLeft (q - p) (r - q)).1 * quad a b c p + (wLeft (q - p) (r - q)).2.1 * quad a b c q +
      (wLeft (q - p) (r - q)).2.2 * quad a b c r = quad' b c p := by
  have e1 : q - p ≠ 0 := by linarith
  have e2 : r - q ≠ 0 := by linarith
  have e3 : q - p + (r - q) ≠ 0 := by linarith
  have e4 : q - p + (r - q) = r - p := by ring
  rw [e4] at e3
  simp only [wLeft, quad, quad', e4]
  field_simp
  ring

theorem mid_exact (a b c p q r : ℝ) (h1 : p < q) (h2 : q < r) :
    (wMid (q - p) (r - q)).1 * quad a b c p + (wMid (q - p) (r - q)).2.1 * quad a b c q +
      (wMid (q - p) (r - q)).2.2 * quad a b c r = quad' b c q := by
  have e1 : q - p ≠ 0 := by linarith
  have e2 : r - q ≠ 0 := by linarith
  have e3 : q - p + (r - q) ≠ 0 := by linarith
  have e4 : q - p + (r - q) = r - p := by ring
  rw [e4] at e3
  simp only [wMid, quad, quad', e4]
  field_simp
  ring

theorem right_exact (a b c p q r : ℝ) (h1 : p < q) (h2 : q < r) :
    (wRight (q - p) (r - q)).1 * quad a b c p + (wRight (q - p) (r - q)).2.1 * quad a b c q +
      (wRight (q - p) (r - q)).2.2 * quad a b c r = quad' b c r := by
  have e1 : q - p ≠ 0 := by linarith
  have e2 : r - q ≠ 0 := by linarith
  have e3 : q - p + (r - q) ≠ 0 := by linarith
  have e4 : q - p + (r - q) = r - p := by ring
  have e5 : r - q + (q - p) = r - p := by ring
  rw [e4] at e3
  simp only [wRight, quad, quad', e4, e5]
  field_simp
  ring

/-- **C89.** The default method (`gradient`, second-order edges): on every increasing grid of at least three
points, equally spaced or not, the derivative of every quadratic function is exact at every point. -/
theorem C89_gradient_exact (x : List ℝ) (hx : x.Pairwise (· < ·)) (h3 : 3 ≤ x.length) (a b c : ℝ) :
    differentiate defaultGradient 1 none x (x.map (quad a b c)) =
      some [some (x.map (quad a b c)), some (x.map (quad' b c))] := by
  have key : gradient 2 x (x.map (quad a b c)) = some (x.map (quad' b c)) := by
    have hlt := at_lt x hx
    have hat := fun k hk => at_map x (quad a b c) k hk
    rw [map_eq_tab x (quad' b c)]
    unfold gradient
    simp only [List.length_map]
    rw [if_neg (by omega)]
    congr 1
    refine tab_congr' fun i hi => ?_
    split_ifs with hu h0 hn h0 hn
    · subst h0
      rw [hat 0 (by omega), hat 1 (by omega), hat 2 (by omega)]
      have e1 := hu 1 (by omega)
      have h01 := hlt 0 1 (by omega) (by omega)
      simp only [dx] at e1 ⊢
      have h12 : at' x 2 = 2 * at' x 1 - at' x 0 := by simp only [zero_add, Nat.reduceAdd] at e1; linarith
      have hne : at' x (0 + 1) - at' x 0 ≠ 0 := by simp only [zero_add]; linarith
      rw [h12]
      simp only [zero_add] at hne ⊢
      generalize at' x 0 = p at *
      generalize at' x 1 = q at *
      simp only [quad, quad']
      field_simp
      ring
    · subst hn
      have i1 : x.length - 3 + 1 = x.length - 2 := by omega
      have i2 : x.length - 2 + 1 = x.length - 1 := by omega
      have e1 := hu (x.length - 3) (by omega)
      have e2 := hu (x.length - 2) (by omega)
      have h01 := hlt 0 1 (by omega) (by omega)
      rw [hat _ (by omega), hat _ (by omega), hat _ (by omega)]
      simp only [dx, i1, i2, zero_add] at e1 e2 ⊢
      have hne : at' x 1 - at' x 0 ≠ 0 := by linarith
      have hq : at' x (x.length - 2) = at' x (x.length - 1) - (at' x 1 - at' x 0) := by linarith
      have hp : at' x (x.length - 3) = at' x (x.length - 1) - 2 * (at' x 1 - at' x 0) := by linarith
      rw [hp, hq]
      generalize at' x 1 - at' x 0 = h at *
      generalize at' x (x.length - 1) = r at *
      simp only [quad, quad']
      field_simp
      ring
    · have i1 : i - 1 + 1 = i := by omega
      have e1 := hu (i - 1) (by omega)
      have e2 := hu i (by omega)
      have h01 := hlt 0 1 (by omega) (by omega)
      rw [hat _ (by omega), hat _ (by omega)]
      simp only [dx, i1, zero_add] at e1 e2 ⊢
      have hne : at' x 1 - at' x 0 ≠ 0 := by linarith
      have hq : at' x (i + 1) = at' x i + (at' x 1 - at' x 0) := by linarith
      have hp : at' x (i - 1) = at' x i - (at' x 1 - at' x 0) := by linarith
      rw [hp, hq]
      generalize at' x 1 - at' x 0 = h at *
      generalize at' x i = r at *
      simp only [quad, quad']
      field_simp
      ring
    · subst h0
      simp only [three, dx, zero_add]
      rw [hat 0 (by omega), hat 1 (by omega), hat 2 (by omega)]
      exact left_exact a b c _ _ _ (hlt 0 1 (by omega) (by omega)) (hlt 1 2 (by omega) (by omega))
    · subst hn
      have i1 : x.length - 3 + 1 = x.length - 2 := by omega
      have i2 : x.length - 2 + 1 = x.length - 1 := by omega
      have i3 : x.length - 3 + 2 = x.length - 1 := by omega
      simp only [three, dx, i1, i2, i3]
      rw [hat _ (by omega), hat _ (by omega), hat _ (by omega)]
      exact right_exact a b c _ _ _ (hlt _ _ (by omega) (by omega)) (hlt _ _ (by omega) (by omega))
    · have i1 : i - 1 + 1 = i := by omega
      have i2 : i - 1 + 2 = i + 1 := by omega
      simp only [three, dx, i1, i2]
      rw [hat _ (by omega), hat _ (by omega), hat _ (by omega)]
      exact mid_exact a b c _ _ _ (hlt _ _ (by omega) (by omega)) (hlt _ _ (by omega) (by omega))
  simp [differentiate, defaultGradient, execute, List.range_succ, key]

/-- Non-vacuity: an unequally spaced grid. -/
example : ([0, 1, 3, 4] : List ℝ).Pairwise (· < ·) ∧ 3 ≤ ([0, 1, 3, 4] : List ℝ).length := by norm_num

/-- **C89.** The Fornberg method with its default order: exact on every polynomial of degree at most four, on every
grid of at least five distinct points. -/
theorem C89_fornberg_exact (n : ℕ) (h5 : 5 ≤ n) (x : ℕ → ℝ) (hx : ∀ i j, i < n → j < n → x i = x j → i = j)
    (p : ℝ[X]) (hp : p.degree ≤ (4 : ℕ)) :
    differentiate defaultFornberg 1 none (tab n x) (tab n fun k => p.eval (x k)) =
      some [some (tab n fun k => p.eval (x k)), some (tab n fun k => (derivative p).eval (x k))] := by
  have := Fornberg.C15_grid_derivative_exact 1 4 n (by omega) (by omega) h5 x hx p hp
  simp only [Function.iterate_one] at this
  simp [differentiate, defaultFornberg, execute, List.range_succ, this]

/-- **C89.** Higher derivatives: the Fornberg method delivers all of them up to the seventh (exact on polynomials of
the interpolation degree), the gradient method delivers `None` from the second on. -/
theorem C89_higher_orders (n acc ord : ℕ) (hacc : acc ≤ 19) (hord : ord ≤ 7) (hn : acc + 1 ≤ n) (x : ℕ → ℝ)
    (hx : ∀ i j, i < n → j < n → x i = x j → i = j) (p : ℝ[X]) (hp : p.degree ≤ acc) :
    differentiate (.fornberg false acc) ord none (tab n x) (tab n fun k => p.eval (x k)) =
      some ((List.range (ord + 1)).map fun k => some (tab n fun i => (derivative^[k] p).eval (x i))) := by
  simp only [differentiate, execute, Bool.false_eq_true, if_false]
  have : ∀ L : List ℕ, (∀ k ∈ L, k ≤ 7) →
      L.mapM (fun k => if k = 0 then some (some (tab n fun k => p.eval (x k)))
        else match Fornberg.gridDerivative k acc (tab n x) (tab n fun k => p.eval (x k)) with
          | some (.ok du) => some (some du)
          | _ => none) = some (L.map fun k => some (tab n fun i => (derivative^[k] p).eval (x i))) := by
    intro L hL
    induction L with
    | nil => rfl
    | cons k L ih =>
      rw [List.mapM_cons, ih fun k hk => hL k (List.mem_cons_of_mem _ hk)]
      by_cases hk : k = 0
      · subst hk; simp
      · rw [if_neg hk, Fornberg.C15_grid_derivative_exact k acc n (hL k (by simp)) hacc hn x hx p hp]
        rfl
  exact this _ fun k hk => by have := List.mem_range.1 hk; omega

theorem mapM_get {α β : Type} (f : α → Option β) (L : List α) (ds : List β) (h : L.mapM f = some ds) (i : ℕ) :
    ds[i]? = L[i]?.bind f := by
  induction L generalizing ds i with
  | nil => simp at h; subst h; simp
  | cons a L ih =>
    rw [List.mapM_cons] at h
    cases ha : f a with
    | none => rw [ha] at h; cases h
    | some b =>
      cases hl : L.mapM f with
      | none => rw [ha, hl] at h; cases h
      | some bs =>
        rw [ha, hl] at h
        have hd : ds = b :: bs := by cases h; rfl
        subst hd
        cases i with
        | zero => simp [ha]
        | succ i => simpa using ih bs hl i

/-- **C89.** Higher derivatives are not delivered by the default method nor by the stencils: the entry of every order
from the second on is `None`. -/
theorem C89_higher_missing (m : Method) (hm : ∀ o a, m ≠ .fornberg o a) (ord : ℕ) (x y : List ℝ)
    (ds : List (Option (List ℝ))) (hd : differentiate m ord none x y = some ds) (k : ℕ) (h2 : 2 ≤ k) (hk : k ≤ ord) :
    ds[k]? = some none := by
  have hr : (List.range (ord + 1))[k]? = some k := by simp [show k < ord + 1 by omega]
  have h1 : k ≠ 1 := by omega
  have h0 : k ≠ 0 := by omega
  cases m with
  | gradient e =>
    simp only [differentiate, execute] at hd
    rw [mapM_get _ _ _ hd, hr]
    simp [h1, h0]
  | stencil o d =>
    simp only [differentiate, execute] at hd
    cases hf : retrieve d o with
    | none => rw [hf] at hd; cases hd
    | some f =>
      rw [hf] at hd
      simp only [Option.bind_eq_bind, Option.bind_some] at hd
      rw [mapM_get _ _ _ hd, hr]
      simp [h1, h0]
  | fornberg o a => exact absurd rfl (hm o a)

/-- **C89.** Edges of first order: the interior is still exact on quadratic functions, the two ends are off by the
curvature times the spacing. -/
theorem C89_edge_order_one (x : List ℝ) (hx : x.Pairwise (· < ·)) (h3 : 3 ≤ x.length) (a b c : ℝ) (r : List ℝ)
    (hr : gradient 1 x (x.map (quad a b c)) = some r) :
    at' r 0 = quad' b c (at' x 0) + c * (at' x 1 - at' x 0) ∧
    at' r (x.length - 1) = quad' b c (at' x (x.length - 1)) - c * (at' x (x.length - 1) - at' x (x.length - 2)) := by
  have hlt := at_lt x hx
  have hat := fun k hk => at_map x (quad a b c) k hk
  unfold gradient at hr
  simp only [List.length_map] at hr
  rw [if_neg (by omega)] at hr
  cases hr
  have h01 := hlt 0 1 (by omega) (by omega)
  have hnn := hlt (x.length - 2) (x.length - 1) (by omega) (by omega)
  have i2 : x.length - 2 + 1 = x.length - 1 := by omega
  have hget : ∀ (f : ℕ → ℝ) k, k < x.length → at' (tab x.length f) k = f k := by
    intro f k hk; simp [at', tab, List.getD, hk]
  constructor
  · rw [hget _ _ (by omega)]
    simp only [if_true]
    have hne : at' x 1 - at' x 0 ≠ 0 := by linarith
    have : (at' (x.map (quad a b c)) 1 - at' (x.map (quad a b c)) 0) / dx x 0 = quad' b c (at' x 0) + c * (at' x 1 - at' x 0) := by
      rw [hat 0 (by omega), hat 1 (by omega)]
      simp only [dx, zero_add, quad, quad']
      generalize at' x 0 = p at *
      generalize at' x 1 = q at *
      field_simp
      ring
    split_ifs <;> first | omega | exact this
  · rw [hget _ _ (by omega)]
    have hne : at' x (x.length - 1) - at' x (x.length - 2) ≠ 0 := by linarith
    have key : (at' (x.map (quad a b c)) (x.length - 1) - at' (x.map (quad a b c)) (x.length - 2)) / dx x (x.length - 2) =
        quad' b c (at' x (x.length - 1)) - c * (at' x (x.length - 1) - at' x (x.length - 2)) := by
      rw [hat _ (by omega), hat _ (by omega)]
      simp only [dx, i2, quad, quad']
      generalize at' x (x.length - 2) = p at *
      generalize at' x (x.length - 1) = q at *
      field_simp
      ring
    split_ifs with hu h0 h1
    all_goals first | omega | exact key | skip
    rw [← hu (x.length - 2) (by omega)]
    exact key

/-! ### Stencils -/

/-- **C90 (proved part).**  At the points where a stencil fits, forward and backward differences are exact on linear
functions, and so are central differences; on every increasing grid. -/
theorem C90_first_order_partial (k : Kernel) (hk : k ≠ .center2) (x : List ℝ) (hx : x.Pairwise (· < ·)) (a b : ℝ) :
    ∃ r, k.run x (x.map fun t => a + b * t) = some r ∧ r.length = x.length ∧
      ∀ i, k.reach.1 ≤ i → i + k.reach.2 < x.length → at' r i = b := by
  refine ⟨_, by rw [Kernel.run, if_neg (by simp)], by simp [tab], fun i h1 h2 => ?_⟩
  have hi : i < x.length := by omega
  have hlt := at_lt x hx
  have hat := fun k hk => at_map x (fun t => a + b * t) k hk
  have : at' (tab x.length fun i => if k.reach.1 ≤ i ∧ i + k.reach.2 < x.length then k.val x (x.map fun t => a + b * t) i else 0) i =
      k.val x (x.map fun t => a + b * t) i := by
    simp [at', tab, List.getD, hi, h1, h2]
  rw [this]
  cases k with
  | forward1 =>
    simp only [Kernel.reach] at h1 h2
    simp only [Kernel.val]
    rw [hat _ (by omega), hat _ (by omega)]
    have := hlt i (i + 1) (by omega) (by omega)
    have hne : at' x (i + 1) - at' x i ≠ 0 := by linarith
    field_simp
    ring
  | backward1 =>
    simp only [Kernel.reach] at h1 h2
    simp only [Kernel.val]
    rw [hat _ (by omega), hat _ (by omega)]
    have := hlt (i - 1) i (by omega) (by omega)
    have hne : at' x i - at' x (i - 1) ≠ 0 := by linarith
    field_simp
    ring
  | center1 =>
    simp only [Kernel.reach] at h1 h2
    simp only [Kernel.val]
    rw [hat _ (by omega), hat _ (by omega)]
    have := hlt (i - 1) (i + 1) (by omega) (by omega)
    have hne : at' x (i + 1) - at' x (i - 1) ≠ 0 := by linarith
    field_simp
    ring
  | center2 => exact absurd rfl hk

/-- **C90 (proved part).**  The five-point stencil is exact on all polynomials of degree four where the five points
are equally spaced. -/
theorem C90_five_point_partial (x : List ℝ) (a b c d e h : ℝ) (hh : h ≠ 0) (i : ℕ) (hi : 2 ≤ i) (hn : i + 2 < x.length)
    (e1 : at' x (i - 2) = at' x i - 2 * h) (e2 : at' x (i - 1) = at' x i - h) (e3 : at' x (i + 1) = at' x i + h)
    (e4 : at' x (i + 2) = at' x i + 2 * h) :
    ∃ r, Kernel.center2.run x (x.map fun t => a + b * t + c * t ^ 2 + d * t ^ 3 + e * t ^ 4) = some r ∧
      at' r i = b + 2 * c * at' x i + 3 * d * at' x i ^ 2 + 4 * e * at' x i ^ 3 := by
  refine ⟨_, by rw [Kernel.run, if_neg (by simp)], ?_⟩
  have hat := fun k hk => at_map x (fun t => a + b * t + c * t ^ 2 + d * t ^ 3 + e * t ^ 4) k hk
  have : ∀ f : ℕ → ℝ, at' (tab x.length f) i = f i := by
    intro f; simp [at', tab, List.getD, show i < x.length by omega]
  rw [this, if_pos ⟨hi, hn⟩]
  simp only [Kernel.val]
  rw [hat _ (by omega), hat _ (by omega), hat _ (by omega), hat _ (by omega), e1, e2, e3, e4]
  generalize at' x i = t
  have : t + h - t = h := by ring
  rw [this]
  field_simp
  ring

/-- **C90 refuted**: whatever is differentiated, every stencil returns zero at an end of the grid (at both ends for
central differences). -/
theorem C90_ends_wrong (k : Kernel) (x y r : List ℝ) (hx : x ≠ []) (hr : k.run x y = some r) :
    at' r 0 = 0 ∨ at' r (x.length - 1) = 0 := by
  have h0 : 0 < x.length := List.length_pos_of_ne_nil hx
  unfold Kernel.run at hr
  split_ifs at hr
  cases hr
  have hget : ∀ (f : ℕ → ℝ) k, k < x.length → at' (tab x.length f) k = f k := by
    intro f k hk; simp [at', tab, List.getD, hk]
  rw [hget _ _ h0, hget _ _ (by omega)]
  cases k with
  | forward1 => right; rw [if_neg]; simp only [Kernel.reach]; omega
  | backward1 => left; rw [if_neg]; simp only [Kernel.reach]; omega
  | center1 => left; rw [if_neg]; simp only [Kernel.reach]; omega
  | center2 => left; rw [if_neg]; simp only [Kernel.reach]; omega

/-- **C90 refuted**, with the exact condition: on an increasing grid the five-point stencil is right at an interior point for
all quartics exactly if the five points around it are equally spaced. -/
theorem C90_uneven_wrong (x : List ℝ) (hx : x.Pairwise (· < ·)) (i : ℕ) (hi : 2 ≤ i) (hn : i + 2 < x.length) :
    (∀ a b c d e : ℝ, ∃ r, Kernel.center2.run x (x.map fun t => a + b * t + c * t ^ 2 + d * t ^ 3 + e * t ^ 4) = some r ∧
      at' r i = b + 2 * c * at' x i + 3 * d * at' x i ^ 2 + 4 * e * at' x i ^ 3) ↔
    ∃ h : ℝ, at' x (i - 2) = at' x i - 2 * h ∧ at' x (i - 1) = at' x i - h ∧ at' x (i + 1) = at' x i + h ∧
      at' x (i + 2) = at' x i + 2 * h := by
  have hlt : ∀ a b, a < b → b < x.length → at' x a < at' x b := fun a b hab hb => by
    simp only [at', List.getD_eq_getElem?_getD, List.getElem?_eq_getElem hb, List.getElem?_eq_getElem (hab.trans hb),
      Option.getD_some]
    exact List.pairwise_iff_getElem.1 hx a b _ _ hab
  have l1 := hlt (i - 2) (i - 1) (by omega) (by omega)
  have l2 := hlt (i - 1) i (by omega) (by omega)
  have l3 := hlt i (i + 1) (by omega) (by omega)
  have l4 := hlt (i + 1) (i + 2) (by omega) (by omega)
  constructor
  · intro H
    have hv : ∀ f : ℕ → ℝ, at' (tab x.length f) i = f i := by
      intro f; simp [at', tab, List.getD, show i < x.length by omega]
    have key : ∀ a b c d e : ℝ,
        -1 * (a + b * at' x (i + 2) + c * at' x (i + 2) ^ 2 + d * at' x (i + 2) ^ 3 + e * at' x (i + 2) ^ 4) +
        8 * (a + b * at' x (i + 1) + c * at' x (i + 1) ^ 2 + d * at' x (i + 1) ^ 3 + e * at' x (i + 1) ^ 4) -
        8 * (a + b * at' x (i - 1) + c * at' x (i - 1) ^ 2 + d * at' x (i - 1) ^ 3 + e * at' x (i - 1) ^ 4) +
        (a + b * at' x (i - 2) + c * at' x (i - 2) ^ 2 + d * at' x (i - 2) ^ 3 + e * at' x (i - 2) ^ 4) =
        (b + 2 * c * at' x i + 3 * d * at' x i ^ 2 + 4 * e * at' x i ^ 3) * (12 * (at' x (i + 1) - at' x i)) := by
      intro a b c d e
      obtain ⟨r, hr, hd⟩ := H a b c d e
      have hat := fun k hk => at_map x (fun t => a + b * t + c * t ^ 2 + d * t ^ 3 + e * t ^ 4) k hk
      rw [Kernel.run, if_neg (by simp)] at hr
      obtain rfl := Option.some.inj hr
      rw [hv, if_pos ⟨hi, hn⟩] at hd
      simp only [Kernel.val] at hd
      rw [hat _ (by omega), hat _ (by omega), hat _ (by omega), hat _ (by omega),
        div_eq_iff (by linarith)] at hd
      exact hd
    generalize at' x (i - 2) = p at *
    generalize at' x (i - 1) = q at *
    generalize at' x i = t at *
    generalize at' x (i + 1) = u at *
    generalize at' x (i + 2) = v at *
    have h1 := key 0 1 0 0 0
    have h2 := key (t ^ 2) (-2 * t) 1 0 0
    have h4 := key (t ^ 4) (-4 * t ^ 3) (6 * t ^ 2) (-4 * t) 1
    obtain ⟨h, rfl⟩ : ∃ h, u = t + h := ⟨u - t, by ring⟩
    obtain ⟨A, rfl⟩ : ∃ A, q = t - A := ⟨t - q, by ring⟩
    obtain ⟨C, rfl⟩ : ∃ C, p = t - C := ⟨t - p, by ring⟩
    obtain ⟨B, rfl⟩ : ∃ B, v = t + B := ⟨v - t, by ring⟩
    have hp : 0 < h := by linarith
    have hA : 0 < A := by linarith
    have hC : A < C := by linarith
    have hB : h < B := by linarith
    have e1 : B + C = 8 * A - 4 * h := by linarith
    have e2 : C ^ 2 - B ^ 2 = 8 * (A ^ 2 - h ^ 2) := by linarith
    have e4 : C ^ 4 - B ^ 4 = 8 * (A ^ 4 - h ^ 4) := by linarith
    have e5 : (A ^ 2 - h ^ 2) * ((C ^ 2 + B ^ 2) - (A ^ 2 + h ^ 2)) = 0 := by
      have : (C ^ 2 - B ^ 2) * (C ^ 2 + B ^ 2) = 8 * (A ^ 2 - h ^ 2) * (A ^ 2 + h ^ 2) := by linarith
      rw [e2] at this
      linarith
    have hAh : A = h := by
      rcases mul_eq_zero.1 e5 with h0 | h0
      · have : (A - h) * (A + h) = 0 := by linarith
        rcases mul_eq_zero.1 this with h' | h' <;> linarith
      · nlinarith
    subst hAh
    have hCB : C = B := by
      have : (C - B) * (C + B) = 0 := by linarith
      rcases mul_eq_zero.1 this with h' | h' <;> linarith
    subst hCB
    have : C = 2 * A := by linarith
    exact ⟨A, by rw [this], rfl, rfl, by rw [this]⟩
  · rintro ⟨h, e1, e2, e3, e4⟩ a b c d e
    exact C90_five_point_partial x a b c d e h (by intro h0; rw [h0] at e3; linarith) i hi hn e1 e2 e3 e4

/-- A grid on which it is wrong even for `y = x`. -/
example : ∃ x r : List ℝ, x.Pairwise (· < ·) ∧ Kernel.center2.run x (x.map fun t => t) = some r ∧ at' r 2 ≠ 1 := by
  refine ⟨[0, 1, 2, 4, 8], _, by norm_num, by rw [Kernel.run, if_neg (by simp)], ?_⟩
  simp [at', tab, Kernel.reach, Kernel.val, List.range_succ]
  norm_num

/-- **C90 refuted**: second-order forward and backward differences are listed but raise. -/
theorem C90_missing_kernel_wrong (ord : ℕ) (h1 : 1 ≤ ord) (d : DType) (hd : d ≠ .center) (x y : List ℝ) :
    differentiate (.stencil 2 d) ord none x y = none := by
  obtain ⟨k, rfl⟩ : ∃ k, ord = k + 1 := ⟨ord - 1, by omega⟩
  have : (List.range (k + 1 + 1)) = 0 :: 1 :: (List.range k).map (· + 2) := by
    rw [List.range_succ_eq_map, List.range_succ_eq_map]
    simp [Function.comp_def]
  cases d with
  | center => exact absurd rfl hd
  | forward => simp [differentiate, execute, retrieve, this]
  | backward => simp [differentiate, execute, retrieve, this]

/-- The derivative types and orders that work: the stencil of each. -/
def Spec.stencils : List (DType × ℕ × Kernel) :=
  [(.forward, 1, .forward1), (.backward, 1, .backward1), (.center, 1, .center1), (.center, 2, .center2)]

/-- **C90 (proved part).**  The stencil is chosen by its names: the first derivative is what the stencil of that type and order
returns, the zeroth the function itself, and other orders than one and two are refused even if no derivative is wanted.  -/
theorem C90_named_partial (d : DType) (o : ℕ) (x y : List ℝ) :
    (∀ k, (d, o, k) ∈ Spec.stencils → ∀ r, k.run x y = some r → differentiate (.stencil o d) 1 none x y = some [some y, some r]) ∧
    (o = 1 ∨ o = 2 → differentiate (.stencil o d) 0 none x y = some [some y]) ∧
    (o ≠ 1 → o ≠ 2 → ∀ ord, differentiate (.stencil o d) ord none x y = none) := by
  refine ⟨fun k hk r hr => ?_, fun ho => ?_, fun h1 h2 ord => ?_⟩
  · have h2 : List.range 2 = [0, 1] := rfl
    simp only [Spec.stencils, List.mem_cons, Prod.mk.injEq, List.not_mem_nil, or_false] at hk
    rcases hk with ⟨rfl, rfl, rfl⟩ | ⟨rfl, rfl, rfl⟩ | ⟨rfl, rfl, rfl⟩ | ⟨rfl, rfl, rfl⟩ <;>
      simp [differentiate, execute, retrieve, hr, h2]
  · have h2 : List.range 1 = [0] := rfl
    rcases ho with rfl | rfl <;> cases d <;> simp [differentiate, execute, retrieve, h2]
  · have : retrieve d o = none := by
      unfold retrieve
      cases d <;> split <;> simp_all
    simp [differentiate, execute, this]

end
end Verif.NumDeriv
