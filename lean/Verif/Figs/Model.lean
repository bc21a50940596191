import Mathlib.Analysis.SpecialFunctions.Sqrt
import Mathlib.Algebra.BigOperators.Group.Finset.Basic
import Mathlib.Algebra.Order.Floor.Ring
import Mathlib.Data.Real.Archimedean
/-!
# Model of the scripts with the stability domains and the threshold

`VB_et_al_2024_additional_plot_compute_scripts/dziembowski_subplot.py` (D below) and `compute_threshold_theta.py` (T).  Real numbers
stand for floating-point numbers; NaN is `none`.  The drawing itself is not modelled, except where `imshow` puts the cells of an array.
-/
namespace Verif.Figs

noncomputable section

/-! ### Stability domains -/

/-- `original_dziembowski` (D:103-151); where the denominator of `q` vanishes the second factor of the result is false. -/
def original (t2 t3 d : ℝ) : Prop :=
  let t23 := t2 * t3
  let ts := t2 + t3 - 1
  let c0 := -(ts ^ 3) - 2 * t23
  let c2 := -12 * t23 + ts * ((t2 - t3) ^ 2 + (t2 + t3) ^ 2 + 2)
  let c4 := 3 * (-6 * t23 + ts * ((t2 - t3) ^ 2 + 2 * (t2 + t3) ^ 2 + 1))
  let q := d / (-ts)
  c0 + c2 * q ^ 2 + c4 * q ^ 4 > 0 ∧ ts > 0

/-- `corrected_dziembowski` (D:154-198). -/
def corrected (t2 t3 d : ℝ) : Prop :=
  let t23 := t2 * t3
  let ts := -t2 - t3 + 1
  let c0 := ts ^ 3 - 2 * t23
  let c2 := -12 * t23 - ts * ((t2 - t3) ^ 2 + (t2 + t3) ^ 2 + 2)
  let c4 := -18 * t23 - (3 * ts) * (ts ^ 2 + 4 * (t2 + t3 - t23))
  let q := d / ts
  c0 + c2 * q ^ 2 + c4 * q ^ 4 > 0 ∧ ts < 0

/-- The number of elements of `np.arange(lo, hi, step)` (D:97). -/
def arangeLen (lo hi step : ℝ) : ℕ := ⌈(hi - lo) / step⌉₊

/-- The elements of `np.arange` (D:97). -/
def arangeAt (lo step : ℝ) (i : ℕ) : ℝ := lo + i * step

/-- The centre of cell `i` of `n` cells that `imshow` draws between `lo` and `hi` (D:99, 530-539). -/
def cellCentre (lo hi : ℝ) (n i : ℕ) : ℝ := lo + (i + 1 / 2) * ((hi - lo) / n)

/-! ### Threshold -/

/-- `get_difference_arrays` (T:106-136) for one ratio. -/
def posDiff (r : ℝ) : Option ℝ := if r - 1 > 0 then some (r - 1) else none
def negDiff (r : ℝ) : Option ℝ := if r - 1 > 0 then none else some (r - 1)

/-- The order that numpy sorts by: NaN last. -/
def nanLe : Option ℝ → Option ℝ → Prop
  | some x, some y => x ≤ y
  | _, none => True
  | none, some _ => False

/-- `p` is a possible result of `np.argpartition(a, k)` (T:172-173): a permutation of the indices, with the element `k` in its place,
none greater before it and none smaller after it; an index out of range raises. -/
structure IsArgPartition {n : ℕ} (a : Fin n → Option ℝ) (k : ℕ) (p : List (Fin n)) : Prop where
  lt : k < n
  perm : p.Perm (List.finRange n)
  before : ∀ i ∈ p.take k, ∀ j, p[k]? = some j → nanLe (a i) (a j)
  after : ∀ i ∈ p.drop (k + 1), ∀ j, p[k]? = some j → nanLe (a j) (a i)

/-- The two partitions (T:139-174). -/
structure Masks {n : ℕ} (k : ℕ) (ratio : Fin n → ℝ) (pos neg : List (Fin n)) : Prop where
  pos : IsArgPartition (fun i => posDiff (ratio i)) k pos
  neg : IsArgPartition (fun i => (negDiff (ratio i)).map fun x => |x|) k neg

/-- `get_k_smallest_points` (T:177-214): the indices of the points. -/
def chosen {n : ℕ} (k : ℕ) (pos neg : List (Fin n)) : List (Fin n) := pos.take k ++ neg.take k

/-- The points (T:212-213). -/
def points {n : ℕ} (k : ℕ) (X : Fin n → ℝ) (pos neg : List (Fin n)) : List ℝ := (chosen k pos neg).map X

/-! ### Linear regression (`scipy.stats.linregress`, T:240) -/

variable {n : ℕ}

def mean (x : Fin n → ℝ) : ℝ := (∑ i, x i) / n

/-- `np.cov(x, y, bias=1)`. -/
def cov (x y : Fin n → ℝ) : ℝ := (∑ i, (x i - mean x) * (y i - mean y)) / n

structure LinResult where
  slope : ℝ
  intercept : ℝ
  stderr : ℝ
  interceptStderr : ℝ

open Classical in
/-- `linregress(x, y)`; identical values of `x` raise. -/
def linregress (x y : Fin n → ℝ) : Option LinResult :=
  let sxx := cov x x
  let syy := cov y y
  let sxy := cov x y
  if sxx = 0 then none
  else
    let r := if sxx = 0 ∨ syy = 0 then 0 else sxy / √(sxx * syy)
    let slope := sxy / sxx
    let intercept := mean y - slope * mean x
    if n = 2 then some ⟨slope, intercept, 0, 0⟩
    else
      let se := √((1 - r ^ 2) * syy / sxx / (n - 2 : ℝ))
      some ⟨slope, intercept, se, se * √(sxx + mean x ^ 2)⟩

/-- `perform_linear_regression` (T:217-245): the boundary and its uncertainty; `theta` and `ratio` are the chosen points. -/
def boundary (theta ratio : Fin n → ℝ) : Option (ℝ × ℝ) :=
  (linregress ratio theta).map fun l => (l.intercept + l.slope, √(l.stderr ^ 2 + l.interceptStderr ^ 2))

end

end Verif.Figs
