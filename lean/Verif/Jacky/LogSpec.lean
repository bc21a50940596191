import Verif.Jacky.Spec
import Mathlib.Analysis.SpecialFunctions.Pow.Real
/-!
# Specification of histograms with bins equally wide in the logarithm
-/
namespace Verif.Jacky.Spec
open Verif.Hist Verif.Hist.Spec
open Classical

/-- Edge `i` of `n` bins between `mn` and `mx` with a constant ratio. -/
noncomputable def logEdge (mn mx : ℝ) (n i : Nat) : ℝ := mn * (mx / mn) ^ ((i : ℝ) / n)

/-- All edges. -/
noncomputable def logEdges (mn mx : ℝ) (n : Nat) : List ℝ := tab (n + 1) (logEdge mn mx n)

/-- Width of bin `i`. -/
noncomputable def logWidth (mn mx : ℝ) (n i : Nat) : ℝ := logEdge mn mx n (i + 1) - logEdge mn mx n i

/-- Number of points of `d` in bin `i` (a shared edge belongs to the bin on its left). -/
noncomputable def logCount (d : List ℝ) (mn mx : ℝ) (n i : Nat) : Nat :=
  d.countP fun x => decide (InBin (logEdges mn mx n) i x)

/-- The smoothed density estimated from `d` at the point `x`: constant on every bin. -/
noncomputable def logDensity (d : List ℝ) (mn mx : ℝ) (n : Nat) (α x : ℝ) : ℝ :=
  (tab n fun i => if InBin (logEdges mn mx n) i x then
    ((logCount d mn mx n i : ℝ) + α) / ((d.length + n * α) * logWidth mn mx n i) else 0).sum

/-- The leave-one-out log-likelihood. -/
noncomputable def logLeaveOneOut (d : List ℝ) (mn mx : ℝ) (α : ℝ) (n : Nat) : ℝ :=
  (tab d.length fun j => Real.log (logDensity (d.eraseIdx j) mn mx n α (d.getD j 0))).sum

/-- The value that the search sees: combinations with `α ≤ 1` and an empty bin are not considered. -/
noncomputable def logScore (d : List ℝ) (mn mx : ℝ) (c : ℝ × Nat) : Option EReal :=
  if 1 < c.1 ∨ ∀ i < c.2, logCount d mn mx c.2 i ≠ 0 then some ((logLeaveOneOut d mn mx c.1 c.2 : ℝ) : EReal)
  else none

/-- Positive data with extreme values `mn` and `mx`, which differ. -/
def PosRange (d : List ℝ) (mn mx : ℝ) : Prop := Range d mn mx ∧ 0 < mn

/-- The returned value is the histogram of `d` with `n` bins of constant ratio between its extremes, with
the bars divided by `N` (if probabilities or densities are asked for). -/
def IsLogHist (d : List ℝ) (mn mx : ℝ) (n N : Nat) (prob dens : Bool) (r : Ret) : Prop :=
  r.hist = some (tab n fun i => X.fin (bar prob dens N (logWidth mn mx n i) (logCount d mn mx n i))) ∧
  r.edges = some (tab (n + 1) fun i => X.fin (logEdge mn mx n i)) ∧
  r.width = some (Width.arr (tab n fun i => X.fin (logWidth mn mx n i)))

end Verif.Jacky.Spec
