import Verif.Jacky.Model
import Verif.Hist.Search
/-!
# Specification of an automatically binned histogram

Hogg (2008): the number of bins and the smoothing constant maximise the leave-one-out likelihood, i.e. the
sum over the data points of the logarithm of the smoothed density estimated from the *other* points.
-/
namespace Verif.Jacky.Spec
open Verif.Hist Verif.Hist.Spec
open Classical

/-- Number of points of `d` in bin `i` of `n` equal bins between `mn` and `mx`. -/
noncomputable def binCount (d : List ℝ) (mn mx : ℝ) (n i : Nat) : Nat :=
  d.countP fun x => decide (InEqBin mn ((mx - mn) / n) n i x)

/-- The smoothed density estimated from `d` at the point `x`: the points that share the bin of `x`, plus
`α`, over the number of points plus `α` per bin, per unit length. -/
noncomputable def density (d : List ℝ) (mn mx : ℝ) (n : Nat) (α x : ℝ) : ℝ :=
  ((d.countP fun y => decide (∃ i, InEqBin mn ((mx - mn) / n) n i x ∧ InEqBin mn ((mx - mn) / n) n i y) : Nat)
    + α) / ((d.length + n * α) * ((mx - mn) / n))

/-- The leave-one-out log-likelihood. -/
noncomputable def leaveOneOut (d : List ℝ) (mn mx : ℝ) (α : ℝ) (n : Nat) : ℝ :=
  (tab d.length fun j => Real.log (density (d.eraseIdx j) mn mx n α (d.getD j 0))).sum

/-- The value that the search sees: combinations with `α ≤ 1` and an empty bin are not considered. -/
noncomputable def score (d : List ℝ) (mn mx : ℝ) (c : ℝ × Nat) : Option EReal :=
  if 1 < c.1 ∨ ∀ i < c.2, binCount d mn mx c.2 i ≠ 0 then some ((leaveOneOut d mn mx c.1 c.2 : ℝ) : EReal)
  else none

/-- `mn` and `mx` are the extreme values of `d`, and they differ. -/
def Range (d : List ℝ) (mn mx : ℝ) : Prop :=
  mn ∈ d ∧ mx ∈ d ∧ (∀ x ∈ d, mn ≤ x ∧ x ≤ mx) ∧ mn < mx

/-- One bar: probability if asked for, else density if asked for, else the count. -/
noncomputable def bar (prob dens : Bool) (N : Nat) (w : ℝ) (c : Nat) : ℝ :=
  if prob then (c : ℝ) / N else if dens then (c : ℝ) / (N * w) else c

/-- The returned value is the histogram of `d` with `n` equal bins between its extremes. -/
def IsHist (d : List ℝ) (mn mx : ℝ) (n : Nat) (prob dens : Bool) (r : Ret) : Prop :=
  r.hist = some (tab n fun i => X.fin (bar prob dens d.length ((mx - mn) / n) (binCount d mn mx n i))) ∧
  r.edges = some (tab (n + 1) fun i => X.fin (mn + i * ((mx - mn) / n))) ∧
  r.width = some (Width.scalar (X.fin ((mx - mn) / n)))

/-- All tried combinations. -/
def grid (alphas : List ℝ) (bins : List Nat) : List (ℝ × Nat) :=
  alphas.flatMap fun a => bins.map fun n => (a, n)

/-- The numbers among the data. -/
def numbers (data : List (Option ℝ)) : List ℝ := data.filterMap id

/-- Ordinary input: positive smoothing constants, one of them above 1, at least one bin number and no bin
number 0, a custom width, no printing. -/
structure Usable (alphas : List ℝ) (bins : List Nat) (o : Opts) : Prop where
  pos : ∀ α ∈ alphas, 0 < α
  big : ∃ α ∈ alphas, 1 < α
  binsPos : ∀ n ∈ bins, 1 ≤ n
  nonempty : bins ≠ []
  quiet : o.verbose = false
  custom : o.custom ≠ []

/-- The reported binning parameters: the chosen constant and bin number, phase 0. -/
def reported (o : Opts) (c : ℝ × Nat) : Option Params :=
  if o.params then Option.some ⟨X.fin c.1, c.2, X.fin 0⟩ else none

end Verif.Jacky.Spec
