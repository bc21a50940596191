import Verif.Coupling.Model
/-!
# Model of the radial and angular kernels of the coupling coefficient

`aesolver/aesolver/solver/profile_helper_classes/angular_kernels/angular_kernel_helper.py` (below: ang) and
`aesolver/aesolver/solver/profile_helper_classes/radial_kernels/radial_kernel_helper.py` (below: rad).
Exact real arithmetic; the profiles are real (the products are taken in complex numbers and the imaginary part
of a row of a symmetrised term is dropped).  `none` is an exception.  The plot labels made from the legends
(`angular_kernel_labeler.py`, `radial_kernel_labeler.py`) are not modelled.
-/
namespace Verif.Kernels
noncomputable section
open Coupling (Term permutations name mul)

/-- The keys of `_symmetry_mapping` in insertion order (ang 119-144, rad 150-175); the index lists are not
used by the callers. -/
def keys (t : Term) : List Term :=
  (permutations t).foldl (fun d k => if k ∈ d then d else d ++ [k]) []

/-- `_kernel_term_constructor` (ang 146-172, rad 177-203): the product of one profile of every mode; the profiles
must have the same length (an array of length one would be broadcast; not modelled). -/
def construct (attr : String → Option (List ℝ)) (a b c : String) : Option (List ℝ) := do
  let p1 ← attr (name a 1)
  let p2 ← attr (name b 2)
  let p3 ← attr (name c 3)
  if p2.length = p1.length ∧ p3.length = p1.length then pure (mul (mul p1 p2) p3) else none

/-- `_get_symmetrized_…_kernel_terms` (ang 84-117, rad 116-148): the rows of the kernel, each of the length of
the grid, and the legend. -/
def symmetrized (build : Term → Option (List ℝ)) (len : ℕ) (t : Term) : Option (List (List ℝ) × List Term) := do
  let rows ← (keys t).mapM fun p => do
    let r ← build p
    if r.length = len then pure r else none
  pure (rows, keys t)

/-! ### Angular kernels -/

/-- The arguments of `_load_angular_kernel_term` (ang 213-220); `sym` tells which of the two lists is given. -/
structure AngLoad where
  label : String
  t : Term
  sym : Bool := true
  mulMu : Bool := false
  divSin : Bool := false
  factor : ℝ := 1

/-- `AngularKernelDict`.  The kernel of a term that is not symmetrised is a single array, kept here as the only
row, and its legend the three names. -/
structure AngEntry where
  kernel : List (List ℝ)
  legend : List Term
  symmetric : Bool
  mulMu : Bool
  divSin : Bool
  factor : ℝ

/-- `_scale_angular_terms` (ang 174-211): the value that the local name `my_kernel` is bound to. -/
def scaled (mu : List ℝ) (mulMu divSin : Bool) (factor : ℝ) (kernel : List (List ℝ)) : List (List ℝ) :=
  kernel.map fun row =>
    let row := row.map (· * factor)
    let row := if mulMu then mul row mu else row
    if divSin then mul row (mu.map fun v => 1 / √(1 - v ^ 2)) else row

/-- `_load_angular_kernel_term` (ang 213-289).  The scaled array is computed and thrown away: the entry keeps
the kernel it had. -/
def loadAngular (o : Coupling.Obj) (l : AngLoad) : Option AngEntry := do
  let build : Term → Option (List ℝ) := fun t => construct o.attr ("_" ++ t.1) ("_" ++ t.2.1) ("_" ++ t.2.2)
  let (kernel, legend) ← if l.sym then symmetrized build o.mu.length l.t
    else (build l.t).map fun r => ([r], [l.t])
  let _lost := scaled o.mu l.mulMu l.divSin l.factor kernel
  pure { kernel := kernel, legend := legend, symmetric := l.sym, mulMu := l.mulMu, divSin := l.divSin,
         factor := l.factor }

/-- `_load_terms_first_contribution_cc` (ang 292-351). -/
def ang1 : List AngLoad :=
  [{ label := "term_1", t := ("hr", "hr", "hr") },
   { label := "term_2", t := ("theta_der_ht_theta", "theta_der_ht_theta", "hr") },
   { label := "term_3", t := ("phi_phi", "phi_phi", "hr") },
   { label := "term_4", t := ("theta_phi", "theta_der_hp_theta", "hr"), divSin := true, factor := -2 },
   { label := "term_5", t := ("theta_der_ht_theta", "hr", "hr") },
   { label := "term_6", t := ("phi_phi", "hr", "hr") },
   { label := "term_7", t := ("theta_der_hr_theta", "ht", "hr") },
   { label := "term_8", t := ("mhr", "hp", "hr"), divSin := true, factor := -1 },
   { label := "term_9", t := ("hr", "ht", "ht") },
   { label := "term_10", t := ("hr", "hp", "hp"), factor := -1 }]

/-- `_load_terms_second_contribution_cc` (ang 354-362). -/
def ang2 : List AngLoad := [{ label := "term_1", t := ("hr", "hr", "hr"), sym := false }]

/-- `_load_terms_third_contribution_cc` (ang 365-515). -/
def ang3 : List AngLoad :=
  [{ label := "term_1", t := ("hr", "ht", "ht") },
   { label := "term_2", t := ("hr", "hp", "hp"), factor := -1 },
   { label := "term_3", t := ("theta_der_hr_theta", "hr", "ht") },
   { label := "term_4", t := ("mhr", "hr", "hp"), divSin := true, factor := -1 },
   { label := "term_5", t := ("theta_der_hr_theta", "theta_der_ht_theta", "ht") },
   { label := "term_6", t := ("mhr", "phi_phi", "hp"), divSin := true },
   { label := "term_7", t := ("mhr", "theta_der_hp_theta", "ht"), divSin := true },
   { label := "term_8", t := ("theta_der_hr_theta", "theta_phi", "hp"), divSin := true },
   { label := "term_9", t := ("ht", "theta_der_ht_theta", "ht") },
   { label := "term_10", t := ("hp", "phi_phi", "hp") },
   { label := "term_11", t := ("hp", "theta_der_hp_theta", "ht") },
   { label := "term_12", t := ("theta_phi", "ht", "hp"), divSin := true },
   { label := "term_13", t := ("theta_der_hr_theta", "hr", "ht") },
   { label := "term_14", t := ("mhr", "hr", "hp"), divSin := true, factor := -1 },
   { label := "term_15", t := ("theta_der_ht_theta", "theta_phi", "theta_der_hp_theta"), divSin := true },
   { label := "term_16", t := ("theta_der_hp_theta", "theta_phi", "phi_phi"), divSin := true },
   { label := "term_17", t := ("hr", "theta_phi", "theta_der_hp_theta"), divSin := true, factor := -1 },
   { label := "term_18", t := ("hr", "phi_phi", "phi_phi"), divSin := true },
   { label := "term_19", t := ("hr", "theta_der_ht_theta", "theta_der_ht_theta"), divSin := true },
   { label := "term_20", t := ("hr", "hr", "theta_der_ht_theta") },
   { label := "term_21", t := ("hr", "hr", "phi_phi") },
   { label := "term_22", t := ("hr", "hr", "hr"), sym := false },
   { label := "term_23", t := ("phi_phi", "phi_phi", "phi_phi"), sym := false },
   { label := "term_24", t := ("theta_der_ht_theta", "theta_der_ht_theta", "theta_der_ht_theta"), sym := false }]

/-- `_load_terms_fourth_contribution_cc` (ang 518-538). -/
def ang4 : List AngLoad :=
  [{ label := "term_1", t := ("hr", "ht", "ht") },
   { label := "term_2", t := ("hr", "hp", "hp"), factor := -1 },
   { label := "term_3", t := ("hr", "hr", "hr"), sym := false }]

/-- `AngularKernelData(coupler)(contribution_nr)` (ang 40-73): the dictionary `term label → entry` in insertion
order; `some none` is the returned None. -/
def angCall (o : Coupling.Obj) (nr : ℤ) : Option (Option (List (String × AngEntry))) :=
  let load (ls : List AngLoad) : Option (Option (List (String × AngEntry))) :=
    (ls.mapM fun l => (loadAngular o l).map fun e => (l.label, e)).map some
  if nr = 1 then load ang1 else if nr = 2 then load ang2 else if nr = 3 then load ang3
  else if nr = 4 then load ang4 else some none

/-! ### Radial kernels -/

/-- What is read from the coupling object (rad 91-105), besides `_x`, `_R_star`, `_Gamma_1` and the gravitational
potential; `none` is a missing attribute. -/
structure RadObj where
  base : Coupling.Obj
  /-- `_P` -/
  P : Option (List ℝ)
  /-- `_rho` -/
  rho : Option (List ℝ)
  /-- `_gamma_1_adDer_profile` -/
  gammaDer : Option (List ℝ)
  /-- `_energy_mode_1` -/
  energy : ℝ

/-- The profiles set by the constructor (rad 51-57, 91-113). -/
structure RadData where
  derGamma : List ℝ
  pressure : List ℝ
  density : List ℝ
  radius : List ℝ
  gamMin : List ℝ
  gamMinSq : List ℝ
  r2 : List ℝ
  r3 : List ℝ

/-- `RadialKernelData.__init__` (rad 51-57, 91-113). -/
def radInit (o : RadObj) : Option RadData := do
  let P ← o.P
  let rho ← o.rho
  let der ← o.gammaDer
  if rho.length = der.length then
    let radius := o.base.x.map fun v => v * o.base.R
    let gam := o.base.Gamma1.map fun v => v - 1
    pure { derGamma := mul rho der, pressure := P, density := rho, radius := radius, gamMin := gam,
           gamMinSq := gam.map fun v => v ^ 2, r2 := radius.map fun v => v ^ 2, r3 := radius.map fun v => v ^ 3 }
  else none

/-- `getattr(self, _s_e_term)` (rad 279) for the names that are used. -/
def profile (o : RadObj) (d : RadData) (s : String) : Option (List ℝ) :=
  if s = "pressure" then some d.pressure else if s = "_gam_min" then some d.gamMin
  else if s = "_gam_min_sq" then some d.gamMinSq else if s = "der_gamma_1_ad" then some d.derGamma
  else if s = "density" then some d.density else if s = "radial_coordinate" then some d.radius
  else if s = "_r2" then some d.r2 else if s = "_r3" then some d.r3
  else if s = "dgravpot" then some o.base.dgrav else if s = "d2gravpot" then some o.base.dgrav2
  else if s = "d3gravpot" then some o.base.dgrav3 else none

/-- The arguments of `_load_radial_kernel_term` (rad 206-212). -/
structure RadLoad where
  label : String
  t : Term
  sym : Bool := true
  structural : List String
  factor : ℝ := 1

/-- `RadialKernelDict`. -/
structure RadEntry where
  kernel : List (List ℝ)
  legend : List Term
  symmetric : Bool
  multipliers : List String

/-- Multiplication of all rows by an array of the same length (numpy broadcasting over the rows). -/
def rowsMul (kernel : List (List ℝ)) (p : List ℝ) : Option (List (List ℝ)) :=
  if kernel.all fun r => r.length == p.length then some (kernel.map fun r => mul r p) else none

/-- `_load_radial_kernel_term` (rad 206-287). -/
def loadRadial (o : RadObj) (d : RadData) (l : RadLoad) : Option RadEntry := do
  let build : Term → Option (List ℝ) := fun t => construct o.base.attr t.1 t.2.1 t.2.2
  let start : Option (List (List ℝ) × List Term) := if l.sym then symmetrized build o.base.x.length l.t
    else (build l.t).map fun r => ([r], [l.t])
  let (kernel, legend) ← start
  let kernel ← rowsMul (kernel.map fun r => r.map (· * l.factor)) d.r3
  let kernel := kernel.map fun r => r.map (· / o.energy)
  let kernel ← l.structural.foldlM (fun k s => do
    let p ← profile o d s
    rowsMul k p) kernel
  pure { kernel := kernel, legend := legend, symmetric := l.sym, multipliers := l.structural }

/-- `_load_terms_first_contribution_cc` (rad 290-344). -/
def rad1 : List RadLoad :=
  let s := ["pressure", "_gam_min"]
  [{ label := "term_1", t := ("_rad_der_x_z_1", "_rad_der_x_z_1", "_rad_diverg"), structural := s, factor := 1 / 2 },
   { label := "term_2", t := ("_z_2_over_c_1_omega", "_z_2_over_c_1_omega", "_rad_diverg"), structural := s,
     factor := 1 / 2 },
   { label := "term_3", t := ("_z_1", "_z_1", "_rad_diverg"), structural := s },
   { label := "term_4", t := ("_z_2_over_c_1_omega", "_z_1", "_rad_diverg"), structural := s },
   { label := "term_5", t := ("_z_1", "_rad_der_x_z_2_c_1_omega", "_rad_diverg"), structural := s },
   { label := "term_6", t := ("_rad_diverg", "_z_2_over_c_1_omega", "_rad_der_x_z_2_c_1_omega"), structural := s,
     factor := -1 }]

/-- `_load_terms_second_contribution_cc` (rad 347-376). -/
def rad2 : List RadLoad :=
  [{ label := "term_1_gam_min", t := ("_rad_diverg", "_rad_diverg", "_rad_diverg"), sym := false,
     structural := ["pressure", "_gam_min_sq"] },
   { label := "term_1_der_gam", t := ("_rad_diverg", "_rad_diverg", "_rad_diverg"), sym := false,
     structural := ["pressure", "der_gamma_1_ad"] }]

/-- `_load_terms_third_contribution_cc` (rad 379-483). -/
def rad3 : List RadLoad :=
  let s := ["pressure"]
  [{ label := "term_1", t := ("_rad_der_x_z_1", "_z_2_over_c_1_omega", "_rad_der_x_z_2_c_1_omega"), structural := s,
     factor := -1 },
   { label := "term_2", t := ("_rad_der_x_z_1", "_z_1", "_rad_der_x_z_2_c_1_omega"), structural := s },
   { label := "term_3", t := ("_z_1", "_z_2_over_c_1_omega", "_rad_der_x_z_2_c_1_omega"), structural := s },
   { label := "term_4", t := ("_z_2_over_c_1_omega", "_z_2_over_c_1_omega", "_rad_der_x_z_2_c_1_omega"),
     structural := s },
   { label := "term_5", t := ("_z_1", "_z_1", "_rad_der_x_z_2_c_1_omega"), structural := s },
   { label := "term_6", t := ("_z_2_over_c_1_omega", "_z_2_over_c_1_omega", "_z_2_over_c_1_omega"), structural := s,
     factor := -1 },
   { label := "term_7", t := ("_z_1", "_z_2_over_c_1_omega", "_z_2_over_c_1_omega"), structural := s, factor := -2 },
   { label := "term_8", t := ("_z_1", "_z_2_over_c_1_omega", "_z_2_over_c_1_omega"), structural := s },
   { label := "term_9", t := ("_z_1", "_z_1", "_z_2_over_c_1_omega"), structural := s },
   { label := "term_10", t := ("_rad_der_x_z_1", "_rad_der_x_z_1", "_rad_der_x_z_1"), sym := false, structural := s,
     factor := 2 },
   { label := "term_11", t := ("_z_1", "_z_1", "_z_1"), sym := false, structural := s, factor := 4 },
   { label := "term_12", t := ("_z_2_over_c_1_omega", "_z_2_over_c_1_omega", "_z_2_over_c_1_omega"), sym := false,
     structural := s, factor := 2 }]

/-- `_load_terms_fourth_contribution_cc` (rad 486-521). -/
def rad4 : List RadLoad :=
  [{ label := "term_1", t := ("_z_1", "_z_2_over_c_1_omega", "_z_2_over_c_1_omega"),
     structural := ["density", "radial_coordinate", "dgravpot"], factor := -(1 / 2) },
   { label := "term_2", t := ("_z_1", "_z_2_over_c_1_omega", "_z_2_over_c_1_omega"),
     structural := ["density", "_r2", "d2gravpot"], factor := 1 / 2 },
   { label := "term_3", t := ("_z_1", "_z_1", "_z_1"), sym := false, structural := ["density", "_r3", "d3gravpot"] }]

/-- `RadialKernelData(coupler)(contribution_nr)` (rad 51-88). -/
def radCall (o : RadObj) (nr : ℤ) : Option (Option (List (String × RadEntry))) := do
  let d ← radInit o
  let load (ls : List RadLoad) : Option (Option (List (String × RadEntry))) :=
    (ls.mapM fun l => (loadRadial o d l).map fun e => (l.label, e)).map some
  if nr = 1 then load rad1 else if nr = 2 then load rad2 else if nr = 3 then load rad3
  else if nr = 4 then load rad4 else some none

end
end Verif.Kernels
