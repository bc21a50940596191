import Verif.Freq.Model
/-! # Specification for the frequency handler -/
namespace Verif.Freq
open Real

/-- The star: gravitational constant, mass, radius and (surface) rotation rate in rad/s. -/
structure Star where
  G : ℝ
  M : ℝ
  R : ℝ
  Ω : ℝ

/-- A physical mode: co-rotating-frame complex angular frequency in rad/s, azimuthal order. -/
structure Phys where
  w : ℂ
  m : ℤ

/-- Inertial-frame angular frequency in rad/s. -/
def Phys.inert (st : Star) (p : Phys) : ℝ := p.w.re + p.m * st.Ω

/-- How many rad/s one stored unit is; `none` for unsupported units. -/
noncomputable def radPerUnit (st : Star) : Stored → Option ℝ
  | .hz => some (2 * π)
  | .uhz => some (2 * π / 1000000)
  | .cycPerDay => some (2 * π / 86400)
  | .radPerSec => some 1
  | .other name => if name = "NONE" then some (√(st.G * st.M / st.R ^ 3)) else none

/-- The dictionary `md` describes mode `p` of star `st`, in whatever supported unit and frame. -/
def Describes (st : Star) (md : ModeDict) (p : Phys) : Prop :=
  md.m = p.m ∧ md.G = st.G ∧ md.M = st.M ∧ md.R = st.R ∧
  (∃ u, radPerUnit st md.units = some u ∧
    md.freq * (u : ℂ) = if md.inertial then p.w + ((p.m * st.Ω : ℝ) : ℂ) else p.w) ∧
  (md.omegaRotDim = some st.Ω ∨
    (md.omegaRotDim = none ∧ md.omegaRot * √(st.G * st.M / st.R ^ 3) = st.Ω))

/-- How many requested time units (s, μs⁻¹…) per second: results are multiplied by this. -/
def scale : Req → ℝ
  | .hz => 1
  | .uhz => 1000000
  | .cycPerDay => 86400
  | .cpd => 86400
  | .radPerSec => 1

end Verif.Freq
