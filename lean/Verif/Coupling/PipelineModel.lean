import Verif.Coupling.Model
import Verif.Norm.Model
/-!
# Model of the preparation of the modes

The end of the constructor of `quadratic_coupling_coefficient_rotating.py` (419-438): the Hough functions are
normalised, the mode energies computed, and the radial functions normalised by `GYRENorm` (model: `Norm.call`);
and the normalised coupling coefficient.  A norm or an energy that is not positive gives NaN or an infinity in the
program and `none` here.
-/
namespace Verif.Coupling
noncomputable section
open Real Classical

/-- `HFHandler.get_functional_names()` (hough_function_handler.py 79-106). -/
def functionalNames : List String :=
  ["hr", "ht", "hp", "theta_der_hr", "theta_der_ht", "theta_der_hp", "theta_phi", "phi_phi", "mhr", "theta_der2_hr",
   "theta_der_hr_theta", "theta_der2_hr_theta", "theta_der_ht_theta", "theta_der_hp_theta"]

/-- The two normalisations of `HoughNormalizer`. -/
inductive HoughNorm
  | lee2012 | prat2019

/-- `HNorm.get_norm_factor` (hough_normalizer.py 56-61, 81-143). -/
def houghFactor (p : HoughNorm) (mu hr : List ℝ) : Option ℝ :=
  match p with
  | .lee2012 => (AngInt.leeFactor mu hr).bind fun f => if 0 < f then some f else none
  | .prat2019 => if 0 < AngInt.pratFactor hr then some (AngInt.pratFactor hr) else none

/-- `_normalize_houghs` for one mode (lines 643-657): the factor of `_hr_mode_k` multiplies all listed functions. -/
def normalizeHough (p : HoughNorm) (o : Obj) (k : ℕ) : Option Obj := do
  let hr ← o.attr (name "_hr" k)
  let f ← houghFactor p o.mu hr
  let a ← Norm.scaleAll (functionalNames.map fun n => name ("_" ++ n) k) f o.attr
  pure { o with attr := a }

/-- `_normalize_houghs` (lines 632-657); the constructor uses the default 'lee2012'. -/
def normalizeHoughs (p : HoughNorm) (o : Obj) : Option Obj := [1, 2, 3].foldlM (normalizeHough p) o

/-- `_G`, `_M_star`; surface rotation frequency and co-rotating frequencies of the modes. -/
structure Setting where
  G : ℝ
  M : ℝ
  omegaRot : ℝ
  omega : ℕ → ℝ

/-- `access_all_parameters()` of the enumeration chosen in lines 425-427. -/
def params (o : Obj) : List String := if o.polytropic then Norm.enumRadialPoly else Norm.enumRadial

/-- Storing the radial functions `a` of mode `k` in the object. -/
def withMode (o : Obj) (k : ℕ) (a : String → Option (List ℝ)) : Obj :=
  { o with attr := (params o).foldl (fun s n => Function.update s (name n k) (a n)) o.attr }

/-- `compute_b_a_mode_energy(i)` as called by the normaliser: energy and classic norm with the radial functions as they
are then. -/
def oracle (s : Setting) (o : Obj) : Norm.Oracle := fun _ i a =>
  (((modeEnergy (withMode o i a) s.omegaRot (s.omega i) i).map (·.2)).getD 0, (classicNorm (withMode o i a) i).getD 0)

/-- The mode as the normaliser sees it. -/
def modeOf (s : Setting) (o : Obj) (i : ℕ) : Norm.Mode :=
  ⟨fun n => o.attr (name n i), ((modeEnergy o s.omegaRot (s.omega i) i).map (·.2)).getD 0, (classicNorm o i).getD 0⟩

/-- Lines 423-438: energies, `GYRENorm(norm_convention='lee2012', nr_modes=3, iterative_process=False,
max_iterations=10)`.  The result is the object, the final energies and the normalisation factors. -/
def normalize (s : Setting) (o : Obj) : Option (Obj × (ℕ → ℝ) × (ℕ → ℝ)) :=
  if ∀ k ∈ [1, 2, 3], ∃ e, modeEnergy o s.omegaRot (s.omega k) k = some e ∧ 0 < e.2 then do
    let st ← Norm.call (params o) (oracle s o) ⟨s.G, s.M, o.R⟩ "lee2012" 3 false 10 (modeOf s o)
    pure ([1, 2, 3].foldl (fun o k => withMode o k (st.modes k).attrs) o, fun k => (st.modes k).energy, st.factors)
  else none

/-- Lines 419-438. -/
def construct (s : Setting) (p : HoughNorm) (o : Obj) : Option (Obj × (ℕ → ℝ) × (ℕ → ℝ)) :=
  (normalizeHoughs p o).bind (normalize s)

/-- `normed_coupling_coefficient` (lines 474-486) after `adiabatic_coupling_rot`. -/
def normedCoupling (s : Setting) (p : HoughNorm) (o : Obj) (g : Garbage) : Option ℝ := do
  let r ← construct s p o
  let c ← coupling r.1 g none
  pure (c.1 / r.2.1 1)

/-- `eta_lee_coupling_coefficient` (lines 523-537). -/
def etaLee (s : Setting) (p : HoughNorm) (o : Obj) (g : Garbage) : Option ℝ := (normedCoupling s p o g).map fun v => 2 * v

end
end Verif.Coupling
