import Mathlib.Analysis.SpecialFunctions.Log.Basic
/-!
# Numbers with the IEEE special values

The histogram code relies on `inf` and `nan` (a combination with an impossible likelihood gives NaN and is
skipped by a comparison).  Finite arithmetic is exact; the sign of zero is not modelled (a zero divisor
counts as positive).
-/
namespace Verif.Jacky

/-- A `float64` with exact finite part. -/
inductive X where
  | nan | ninf | pinf
  | fin (r : ℝ)

namespace X
open Classical

/-- The infinity with the sign of a non-zero finite number; NaN for zero (`0 * inf`). -/
noncomputable def infOf (r : ℝ) : X := if r = 0 then nan else if 0 < r then pinf else ninf

/-- IEEE addition. -/
noncomputable def add : X → X → X
  | fin a, fin b => fin (a + b)
  | nan, _ => nan
  | _, nan => nan
  | pinf, ninf => nan
  | ninf, pinf => nan
  | pinf, _ => pinf
  | ninf, _ => ninf
  | _, y => y

/-- IEEE subtraction. -/
noncomputable def neg : X → X
  | fin a => fin (-a) | nan => nan | pinf => ninf | ninf => pinf

/-- IEEE subtraction. -/
noncomputable def sub (a b : X) : X := add a (neg b)

/-- IEEE multiplication. -/
noncomputable def mul : X → X → X
  | fin a, fin b => fin (a * b)
  | nan, _ => nan
  | _, nan => nan
  | fin a, pinf => infOf a
  | fin a, ninf => infOf (-a)
  | pinf, fin b => infOf b
  | ninf, fin b => infOf (-b)
  | pinf, pinf => pinf
  | ninf, ninf => pinf
  | _, _ => ninf

/-- IEEE division (numpy: no exception). -/
noncomputable def div : X → X → X
  | fin a, fin b => if b = 0 then infOf a else fin (a / b)
  | nan, _ => nan
  | _, nan => nan
  | fin _, _ => fin 0
  | pinf, fin b => if b < 0 then ninf else pinf
  | ninf, fin b => if b < 0 then pinf else ninf
  | _, _ => nan

/-- `np.log`. -/
noncomputable def log : X → X
  | fin a => if a < 0 then nan else if a = 0 then ninf else fin (Real.log a)
  | pinf => pinf
  | _ => nan

/-- `a > b`; false as soon as one of them is NaN. -/
noncomputable def gt : X → X → Bool
  | fin a, fin b => decide (b < a)
  | nan, _ => false
  | _, nan => false
  | pinf, pinf => false
  | pinf, _ => true
  | _, pinf => false
  | ninf, _ => false
  | fin _, ninf => true

/-- `sum` of an array. -/
noncomputable def sum (l : List X) : X := l.foldl add (fin 0)

/-- The cast of a rounded float to `int32`: NaN and the infinities give the most negative integer
(x86-64); overflow of finite values is not modelled. -/
def toInt (f : ℝ → Int) : X → Int
  | fin a => f a
  | _ => -2147483648

@[simp] theorem add_fin (a b : ℝ) : add (fin a) (fin b) = fin (a + b) := rfl
@[simp] theorem sub_fin (a b : ℝ) : sub (fin a) (fin b) = fin (a - b) := by
  simp only [sub, neg, add_fin, sub_eq_add_neg]
@[simp] theorem mul_fin (a b : ℝ) : mul (fin a) (fin b) = fin (a * b) := rfl
theorem div_fin {a b : ℝ} (h : b ≠ 0) : div (fin a) (fin b) = fin (a / b) := by rw [div, if_neg h]
theorem log_fin {a : ℝ} (h : 0 < a) : log (fin a) = fin (Real.log a) := by
  rw [log, if_neg h.not_gt, if_neg h.ne']
@[simp] theorem gt_fin (a b : ℝ) : gt (fin a) (fin b) = decide (b < a) := rfl
@[simp] theorem gt_fin_ninf (a : ℝ) : gt (fin a) ninf = true := rfl
@[simp] theorem nan_gt (b : X) : gt nan b = false := by cases b <;> rfl
@[simp] theorem add_nan (b : X) : add b nan = nan := by cases b <;> rfl
@[simp] theorem nan_add (b : X) : add nan b = nan := by cases b <;> rfl

theorem foldl_add_fin (l : List ℝ) (a : ℝ) : (l.map fin).foldl add (fin a) = fin (a + l.sum) := by
  induction l generalizing a with
  | nil => simp
  | cons b t ih => simp [ih, add_assoc]

theorem sum_fin (l : List ℝ) : sum (l.map fin) = fin l.sum := by rw [sum, foldl_add_fin, zero_add]

theorem foldl_add_nan (l : List X) (h : nan ∈ l) (a : X) : l.foldl add a = nan := by
  have hn : ∀ l : List X, l.foldl add nan = nan := by
    intro l; induction l with
    | nil => rfl
    | cons b t ih => simp [ih]
  induction l generalizing a with
  | nil => simp at h
  | cons b t ih =>
    rcases List.mem_cons.1 h with rfl | h
    · simp [hn]
    · exact ih h _

theorem sum_nan (l : List X) (h : nan ∈ l) : sum l = nan := foldl_add_nan l h _

end X

end Verif.Jacky
