import Verif.Kernels.Radial
import Verif.Store.Names
/-!
# Model of the figures of the radial and angular kernels

In `aesolver/aesolver/solver`: `profile_helper_classes/angular_kernels/angular_kernel_labeler.py` (below: al) and
`angular_kernel_label_enumeration.py` (ae), `profile_helper_classes/radial_kernels/radial_kernel_labeler.py` (rl) and
`radial_kernel_label_enumeration.py` (re), `profile_plot_classes/kernel_plots/angular_kernel_plots.py` (ap),
`radial_kernel_plots.py` (rp), `kernel_figure.py` (kf), `generic_functions.py` (gf), and the calls in `quadratic_profile.py` (qp).
Kept: the files, the panels of each figure, and in each panel the curves with their points and their legend texts, the title, and
the shaded zone.  Left out: ticks, sizes, colours, line widths, axis labels.  `none` is an exception.
-/
namespace Verif.ProfRun
noncomputable section
open Inlist (Str)
open Coupling (Term)
open Kernels (AngEntry RadEntry)

/-! ### Legend texts -/

/-- `LabelInfoPlot.get_plot_label` (ae 11-47) for the names as they are written in the helper class (an upper-case variant of a
name has the same text); any other name has no text. -/
def angText (s : String) : Str :=
  match s with
  | "hr" => r"H_r".toList
  | "ht" => r"H_\theta".toList
  | "hp" => r"H_\phi".toList
  | "mhr" => r"m\,H_r".toList
  | "theta_der_hr_theta" => r"\partial\,H_r".toList
  | "theta_der_ht_theta" => r"\partial\,H_\theta".toList
  | "theta_der_hp_theta" => r"\partial\,H_\phi".toList
  | "phi_phi" => r"H_\phi^\phi".toList
  | "theta_phi" => r"H_\phi^\theta".toList
  | _ => []

/-- `SpecificLabelInfoPlot.get_plot_label` (ae 50-90): the text of one of the modes A, B and C. -/
def angTextOf (s : String) (mode : Str) : Str :=
  let wrap (t : String) : Str := r"\left(".toList ++ t.toList ++ r"\right)_{".toList ++ mode ++ "}".toList
  match s with
  | "hr" => wrap r"H_r"
  | "ht" => wrap r"(H_\theta"
  | "hp" => wrap r"H_\phi"
  | "mhr" => wrap r"m\,H_r"
  | "theta_der_hr_theta" => wrap r"\partial\,H_r"
  | "theta_der_ht_theta" => wrap r"\partial\,H_\theta"
  | "theta_der_hp_theta" => wrap r"\partial\,H_\phi"
  | "phi_phi" => wrap r"H_\phi^\phi"
  | "theta_phi" => wrap r"H_\phi^\theta"
  | _ => []

/-- `LabelInfoPlot.get_plot_label` (re 10-57). -/
def radText (s : String) : Str :=
  match s with
  | "_z_1" => r"z_1".toList
  | "_rad_diverg" => r"H".toList
  | "_rad_der_x_z_1" => r"\dfrac{\partial(r\,z_1)}{\partial r}".toList
  | "_z_2_over_c_1_omega" => r"\dfrac{z_2}{c_1\,\bar{\omega}^2}".toList
  | "_rad_der_x_z_2_c_1_omega" => r"\dfrac{\partial}{\partial r}\,(r\,\dfrac{z_2}{c_1\,\bar{\omega}^2})".toList
  | "pressure" => r"P".toList
  | "_gam_min" => r"(\Gamma_1 - 1)".toList
  | "_gam_min_sq" => r"(\Gamma_1 - 1)^2".toList
  | "der_gamma_1_ad" => r"\left(\dfrac{\partial \Gamma_1}{\partial \ln \rho}\right)_S".toList
  | "density" => r"\rho".toList
  | "_r3" => r"r^3".toList
  | "_r2" => r"r^2".toList
  | "radial_coordinate" => r"r".toList
  | "d3gravpot" => r"\dfrac{\partial^3 \Phi}{\partial r^3}".toList
  | "d2gravpot" => r"\dfrac{\partial^2 \Phi}{\partial r^2}".toList
  | "dgravpot" => r"\dfrac{\partial \Phi}{\partial r}".toList
  | _ => []

/-- `SpecificLabelInfoPlot.get_plot_label` (re 60-99). -/
def radTextOf (s : String) (mode : Str) : Str :=
  match s with
  | "_rad_diverg" => r"(H)_{".toList ++ mode ++ "}".toList
  | "_z_1" => r"(z_{1})_{".toList ++ mode ++ "}".toList
  | "_z_2_over_c_1_omega" => r"\left(\dfrac{z_2}{c_1\,\bar{\omega}^2}\right)_{".toList ++ mode ++ "}".toList
  | "_rad_der_x_z_1" => r"\left(\dfrac{\partial(r\,z_1)}{\partial r}\right)_{".toList ++ mode ++ "}".toList
  | _ => []

/-- `sep.join(l)`. -/
def joinWith (sep : Str) (l : List Str) : Str := List.intercalate sep l

/-- The three texts of a term, separated by a comma and a space (al 43-65, rl 39-61): with the modes A, B, C when the term is not
symmetrised. -/
def triple (plain : String → Str) (specific : String → Str → Str) (sym : Bool) (t : Term) : Str :=
  joinWith ", ".toList (if sym then [plain t.1, plain t.2.1, plain t.2.2]
    else [specific t.1 ['A'], specific t.2.1 ['B'], specific t.2.2 ['C']])

/-- `math.isclose(a, b)` with the default tolerances (al 192-221). -/
def isClose (a b : ℝ) : Bool := decide (|a - b| ≤ 1e-9 * max |a| |b|)

/-- `_get_individual_label_string` (al 121-189); `repr` writes a number. -/
def angLabel (repr : ℝ → Str) (mulMu divSin : Bool) (factor : ℝ) (sym : Bool) (part : Str) : Str :=
  let p := if sym then '[' :: part ++ [']'] else part
  let pick (one minusOne other : Str) : Str := if isClose factor 1 then one else if isClose factor (-1) then minusOne else other
  let over (num : Str) : Str := r"$\dfrac{".toList ++ (num ++ p) ++ r"}{\sqrt{1 - \mu^2}}$".toList
  match mulMu, divSin with
  | false, false => pick ('$' :: p ++ ['$']) (r"$-\,".toList ++ p ++ ['$']) ('$' :: repr factor ++ r"\,[".toList ++ p ++ "]$".toList)
  | true, false => pick (r"$\mu\,".toList ++ p ++ ['$']) (r"$-\,\mu\,".toList ++ p ++ ['$'])
      ('$' :: repr factor ++ r"\,\mu\,".toList ++ p ++ ['$'])
  | false, true => over (pick [] r"-\,".toList (repr factor ++ r"\,".toList))
  | true, true => over (pick r"\mu\,".toList r"-\,\mu\,".toList (repr factor ++ r"\,\mu\,".toList))

/-- `generate_angular_plot_labels` (al 28-79): the texts of the rows of an entry. -/
def angLegend (repr : ℝ → Str) (e : AngEntry) : List Str :=
  e.legend.map fun t => angLabel repr e.mulMu e.divSin e.factor e.symmetric (triple angText angTextOf e.symmetric t)

/-- `generate_plot_labels` (rl 27-63): the texts of the rows of an entry. -/
def radLegend (e : RadEntry) : List Str := e.legend.map fun t => '$' :: triple radText radTextOf e.symmetric t ++ ['$']

/-- `legend_title` (rl 65-78). -/
def radTitle (e : RadEntry) : Str := '$' :: joinWith r"\,".toList (e.multipliers.map radText) ++ ['$']

/-! ### Panels and figures -/

/-- A curve: its text in the legend and its points. -/
structure Curve where
  label : Str
  points : List (ℝ × ℝ)

/-- A panel: its curves, its title, and the points at which the background is shaded. -/
structure Panel where
  curves : List Curve := []
  title : Str := []
  shade : Option (List Bool) := none

/-- `ax.plot((np.ones_like(kernel) * x).T, kernel.T, label=…)`: one curve per row; a list of texts must have one text per row, a
single text (given here as a list of one) is used for all rows. -/
def plotRows (x : List ℝ) (rows : List (List ℝ)) (labels : List Str) : Option (List Curve) :=
  if rows.all fun r => r.length == x.length then
    if labels.length = 1 then some (rows.map fun r => ⟨labels.headD [], x.zip r⟩)
    else if labels.length = rows.length then some ((labels.zip rows).map fun p => ⟨p.1, x.zip p.2⟩)
    else none
  else none

/-- A figure: its directory below the output directory of the run, the first part of its file name, its format and its panels. -/
structure Figure where
  subdir : Str
  base : Str
  ext : Str
  panels : List Panel

/-- `kernel_fig` (kf 125-169) with one row of `cols` panels; the radial figures are shaded where the TAR is valid (kf 107-122; the
mask must have one entry per shell). -/
def emptyFig (x : List ℝ) (tar : Option (List Bool)) (cols : ℕ) : Option (List Panel) :=
  match tar with
  | none => some (List.replicate cols {})
  | some v => if v.length = x.length then some (List.replicate cols { shade := some v }) else none

/-- Enter the curves and the title of entry `i` in panel `i` of the list (ap 156-180, rp 147-167); `none`: there is no such panel. -/
def drawAll (axes : List Panel) : ℕ → List (List Curve × Str) → Option (List Panel)
  | _, [] => some axes
  | i, (cs, t) :: rest => match axes[i]? with
    | none => none
    | some a => drawAll (axes.set i { a with curves := a.curves ++ cs, title := t }) (i + 1) rest

/-- Cut the list of panels into the figures again. -/
def regroup : List ℕ → List Panel → List (List Panel)
  | [], _ => []
  | c :: cs, ps => ps.take c :: regroup cs (ps.drop c)

/-- The part of the file name that depends on the figure (ap 140, 187, rp 129, 174): the figure of a contribution with one panel is
called `…_radial_kernels` for the angular kernels too. -/
def kernelBase (kind : String) (nr : ℕ) (single : Bool) (i : ℕ) : Str :=
  if single then "cc_contribution_".toList ++ Store.decNat nr ++ "_radial_kernels".toList
  else "cc_contribution_".toList ++ Store.decNat nr ++ ("_" ++ kind ++ "_kernels_nr_").toList ++ Store.decNat (i + 1)

/-- `create_…_contribution_figures_for_specific_contribution` (ap 53-193, rp 51-180); `single` and `multi` are the entries as they
are drawn in the two cases. -/
def kernelFigures (kind : String) (nr : ℕ) (x : List ℝ) (tar : Option (List Bool)) (cols : List ℕ) (single : Bool)
    (entries : List (List Curve × Str)) : Option (List Figure) := do
  let figs ← cols.mapM (emptyFig x tar)
  let axes := figs.flatten
  let panels ← if single then
      (match axes[0]? with
        | none => if entries = [] then some axes else none
        | some a => some (axes.set 0 { a with curves := a.curves ++ (entries.map (·.1)).flatten }))
    else drawAll axes 0 entries
  pure (((regroup cols panels).zipIdx).map fun p =>
    ⟨(kind ++ "_kernels").toList, kernelBase kind nr single p.2, "png".toList, p.1⟩)

/-- `rf"[{legend_string}]".replace(…)…` and `rf"{legend_string}"…` (ap 110-123): the text of a list of one string is that string
in quotes and square brackets; the quotes next to a dollar disappear and the escaped backslashes become backslashes again.  A
symmetrised entry gets a second pair of brackets.  (A list of several strings, which does not occur for the entries drawn in this
way, would be written with commas; not modelled.) -/
def singleAngLabel (sym : Bool) (legend : List Str) : Str :=
  let l := '[' :: legend.headD [] ++ [']']
  if sym then '[' :: l ++ [']'] else l

/-- The entries of the angular kernels as they are drawn: in one panel (ap 107-130), or each in its own panel (ap 156-180). -/
def angCurves (repr : ℝ → Str) (mu : List ℝ) (single : Bool) (e : AngEntry) : Option (List Curve × Str) :=
  let leg := angLegend repr e
  (plotRows mu e.kernel (if single then [singleAngLabel e.symmetric leg]
    else leg.map fun l => if e.symmetric then l else '[' :: l ++ [']'])).map fun c => (c, [])

/-- The entries of the radial kernels as they are drawn: in one panel (rp 110-119), or each in its own panel (rp 147-167). -/
def radCurves (energy : Str) (x : List ℝ) (single : Bool) (e : RadEntry) : Option (List Curve × Str) :=
  let leg := radLegend e
  if single then
    (plotRows x e.kernel [radTitle e ++ r"$\,\,$[".toList ++ leg.headD [] ++ "]".toList ++ energy]).map fun c => (c, [])
  else (plotRows x e.kernel (leg.map fun l => '[' :: l ++ [']'])).map fun c => (c, radTitle e ++ energy)

/-- The text for the scale of the radial kernels (qp 636). -/
def energyText : Str := r"$\,\left(\dfrac{{r^3}}{{\epsilon}}\right)$".toList

/-- The number of panels of the figures of a contribution (qp 567-611, 645-698), and whether they are drawn in one panel. -/
def angCols (nr : ℤ) : List ℕ × Bool :=
  if nr = 1 then ([2, 2, 2, 2, 2], false) else if nr = 2 then ([1], true)
  else if nr = 3 then ([3, 3, 3, 3, 3, 3, 3, 3], false) else ([3], false)

def radCols (nr : ℤ) : List ℕ × Bool :=
  if nr = 1 then ([3, 3], false) else if nr = 2 then ([1], true) else if nr = 3 then ([3, 3, 3, 3], false) else ([3], false)

/-- The figures of the angular kernels of contribution `nr` (qp 531-611). -/
def angFigures (repr : ℝ → Str) (o : Coupling.Obj) (nr : ℤ) : Option (List Figure) := do
  let some d ← Kernels.angCall o nr | none
  let cs ← d.mapM fun p => angCurves repr o.mu (angCols nr).2 p.2
  kernelFigures "angular" nr.toNat o.mu none (angCols nr).1 (angCols nr).2 cs

/-- The figures of the radial kernels of contribution `nr` (qp 615-698). -/
def radFigures (o : Kernels.RadObj) (tar : List Bool) (nr : ℤ) : Option (List Figure) := do
  let some d ← Kernels.radCall o nr | none
  let cs ← d.mapM fun p => radCurves energyText o.base.x (radCols nr).2 p.2
  kernelFigures "radial" nr.toNat o.base.x (some tar) (radCols nr).1 (radCols nr).2 cs

end
end Verif.ProfRun
