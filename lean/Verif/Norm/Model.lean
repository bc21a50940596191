import Mathlib.Analysis.Real.Sqrt
/-!
# Model of `gyre-tools/gyre_eigen_norm`

`gyre_eigen_norm.py` (GN) and `enumeration_modules/enum_norm.py` (EN).  Simplifications: real arithmetic;
`np.sqrt` of a negative number (NaN) is `Real.sqrt` (0), so theorems about values assume positive norms; the
data object is its per-mode attributes; arrays of `nr_modes` entries are functions of the mode number
`1..nr_modes`; debug logging is left out.  The outer `none` is an uncaught exception.  How the energies are
computed from the attributes is a parameter (`Oracle`), which may depend on the number of the call, so that
any rounding behaviour is covered; the exact formula is `exactOracle`.
-/
namespace Verif.Norm
noncomputable section

/-- The normalisation conventions, EN:29-52; the name is looked up after `.upper()`, and an unknown name
is an uncaught `KeyError` (enum_norm_wrapper.py:55-67 catches `AttributeError` only). -/
inductive Conv | lee2012 | schenk2002

/-- Look-up by name, enum_norm_wrapper.py:57-61. -/
def convOf (s : String) : Option Conv :=
  if s.toUpper = "LEE2012" then some .lee2012
  else if s.toUpper = "SCHENK2002" then some .schenk2002 else none

/-- Stellar parameters `_G`, `_M_star`, `_R_star`. -/
structure Star where
  G : ℝ
  M : ℝ
  R : ℝ

/-- The attributes `{name}_mode_{nr}` of one mode and its stored `_energy_mode`, `_classic_norm_mode`. -/
structure Mode where
  attrs : String → Option (List ℝ)
  energy : ℝ
  classic : ℝ

/-- Energy and classic norm of a mode's attributes, as computed by the `clock`-th call of
`compute_b_a_mode_energy(mode_nr)`. -/
abbrev Oracle := (clock mode : Nat) → (String → Option (List ℝ)) → ℝ × ℝ

/-- The normalising factor, EN:30-33, 42-45 (via `factor_from_object`, EN:55-87, indexer 0). -/
def factor (c : Conv) (s : Star) (m : Mode) : ℝ :=
  match c with
  | .lee2012 => Real.sqrt ((s.G * s.M ^ 2) / (s.R * m.energy))
  | .schenk2002 => Real.sqrt ((s.M * s.R ^ 2) / m.classic)

/-- The convention's target, EN:35, 47. -/
def target (c : Conv) (s : Star) : ℝ :=
  match c with
  | .lee2012 => (s.G * s.M ^ 2) / s.R
  | .schenk2002 => s.M * s.R ^ 2

/-- The quantity compared with the target, EN:36, 48. -/
def quantity (c : Conv) (m : Mode) : ℝ :=
  match c with
  | .lee2012 => m.energy
  | .schenk2002 => m.classic

/-- The normaliser object together with the data object; GN:49-56, 59-86. -/
structure St where
  modes : Nat → Mode
  factors : Nat → ℝ
  check : Nat → Bool
  iterNr : Nat
  clock : Nat

/-- `setattr(obj, name, c * getattr(obj, name))` for all the listed names, GN:280-288, 323-332; a missing
attribute raises. -/
def scaleAll (params : List String) (c : ℝ) (attrs : String → Option (List ℝ)) :
    Option (String → Option (List ℝ)) :=
  params.foldlM (fun a n => (a n).map fun v => Function.update a n (some (v.map (c * ·)))) attrs

/-- Replace the attributes of mode `i`. -/
def setAttrs (st : St) (i : Nat) (a : String → Option (List ℝ)) : St :=
  { st with modes := Function.update st.modes i { st.modes i with attrs := a } }

/-- `_get_norm_factor` and `_eigenmode_normalizer` for one mode, GN:154-158, 296-332. -/
def initOne (params : List String) (c : Conv) (s : Star) (st : St) (i : Nat) : Option St := do
  let f := factor c s (st.modes i)
  let st := { st with factors := Function.update st.factors i f }
  let a ← scaleAll params (st.factors i) (st.modes i).attrs
  pure (setAttrs st i a)

/-- `compute_b_a_mode_energy(i)`. -/
def energyOne (E : Oracle) (st : St) (i : Nat) : St :=
  let r := E st.clock i (st.modes i).attrs
  { st with
    modes := Function.update st.modes i { st.modes i with energy := r.1, classic := r.2 }
    clock := st.clock + 1 }

open Classical in
/-- `_check_normalization`, GN:335-350: the flag is the negated exact equality (EN:122). -/
def checkOne (c : Conv) (s : Star) (st : St) (i : Nat) : St :=
  { st with check := Function.update st.check i (! decide (target c s = quantity c (st.modes i))) }

/-- `_refine_mode_obj`, GN:263-293. -/
def refineOne (params : List String) (E : Oracle) (c : Conv) (s : Star) (st : St) (i : Nat) : Option St := do
  let f := factor c s (st.modes i)
  let st := { st with factors := Function.update st.factors i (st.factors i * f) }
  let a ← scaleAll params f (st.modes i).attrs
  pure (checkOne c s (energyOne E (setAttrs st i a) i) i)

/-- Mode numbers `range(1, nr_modes + 1)`. -/
def modeNrs (nr : Nat) : List Nat := (List.range nr).map (· + 1)

/-- `_check_array.any()`. -/
def anyCheck (nr : Nat) (st : St) : Bool := (modeNrs nr).any st.check

/-- `_iterative_refinement_looper`, GN:196-215.  The `else` clause of the `for` (reached when the loop was not
left by `break`) uses `_refine_mode_nrs`, which is unbound if no iteration was made (`bound = false`). -/
def loop (params : List String) (E : Oracle) (c : Conv) (s : Star) (nr : Nat) : Nat → Bool → St → Option St
  | 0, bound, st => if bound then some st else none
  | n + 1, _, st =>
    if anyCheck nr st = false then some st
    else do
      let st := { st with iterNr := st.iterNr + 1 }
      let st ← ((modeNrs nr).filter st.check).foldlM (refineOne params E c s) st
      loop params E c s nr n true st

/-- `__init__` and `__call__`, GN:59-97, 150-194. -/
def call (params : List String) (E : Oracle) (s : Star) (convention : String) (nr : Nat) (iterative : Bool)
    (maxIter : Nat) (modes : Nat → Mode) : Option St := do
  let c ← (if nr = 0 then some .lee2012 else convOf convention)
  let st : St := ⟨modes, fun _ => 0, fun _ => true, 0, 0⟩
  let st ← (modeNrs nr).foldlM (initOne params c s) st
  let st := (modeNrs nr).foldl (energyOne E) st
  let st := (modeNrs nr).foldl (fun st i => if st.check i then checkOne c s st i else st) st
  if iterative && anyCheck nr st then loop params E c s nr maxIter false st
  else some st

/-- `EnumRadial.access_all_parameters()`, enumerated_quadratic_coupling.py:20-32, 59-68. -/
def enumRadial : List String :=
  ["_z_1", "_z_2", "_x_z_1", "_z_2_over_c_1_omega", "_x_z_2_over_c_1_omega", "_rad_der_x_z_1",
    "_rad_der_x_z_2_c_1_omega", "_rad_diverg", "_lag_L_dim"]
/-- `EnumRadialPoly.access_all_parameters()`, enumerated_quadratic_coupling.py:76-87, 114-123. -/
def enumRadialPoly : List String :=
  ["_z_1", "_z_2", "_x_z_1", "_z_2_over_c_1_omega", "_x_z_2_over_c_1_omega", "_rad_der_x_z_1",
    "_rad_der_x_z_2_c_1_omega", "_rad_diverg"]

/-- What `compute_b_a_mode_energy` needs besides the radial functions: grid `x`, `rho_normed`, the radial
integration, the angular integrals of `hr hr`, `ht ht`, `hp hp` and `mu ht hp` (which do not change while the
radial functions are normalised), `surf_rot_angular_freq`, the corotating frequency, `_norm_rho`, `_R_star`. -/
structure EnergyData where
  x : List ℝ
  rho : List ℝ
  radint : List ℝ → ℝ
  ar : ℝ
  at' : ℝ
  ap : ℝ
  ac : ℝ
  omRot : ℝ
  corot : ℝ
  normRho : ℝ
  R : ℝ

/-- `prefac * f ** 2` with `prefac = x ** 2 * rho`. -/
def radIntegrand (d : EnergyData) (f : List ℝ) : List ℝ :=
  List.zipWith (fun p v => p * v ^ 2) (List.zipWith (fun x r => x ^ 2 * r) d.x d.rho) f

/-- `_compute_traditional_norms_modes` and `compute_b_a_mode_energy`,
quadratic_coupling_coefficient_rotating.py:1187-1237, 1344-1399: (energy, classic norm); a missing attribute
is read as the empty array. -/
def exactOracle (pi : ℝ) (data : Nat → EnergyData) : Oracle := fun _ i attrs =>
  let d := data i
  let z1 := (attrs "_x_z_1").getD []
  let z2 := (attrs "_x_z_2_over_c_1_omega").getD []
  let trad := d.ar * d.radint (radIntegrand d z1) + d.at' * d.radint (radIntegrand d z2)
    + d.ap * d.radint (radIntegrand d z2)
  let classic := trad * 2 * pi
  let coriolis := d.radint (radIntegrand d z2) * d.ac * 8 * pi * d.omRot
  let ba := (coriolis + 2 * d.corot * classic) * (d.normRho * d.R ^ 5)
  (d.corot * ba, classic)

end
end Verif.Norm
