import Mathlib.Data.Real.Basic
/-!
# Model of the figures of the comparison of adiabatic and non-adiabatic modes

`aesolver/aesolver/ad_nad_comparer/comparer.py` (A) 128-327, `plotting/plotter.py` (P), `plotting/gyre_plotter.py` (G),
`plotting/mesa_plotter.py` (M), `gyre-tools/gyre_unit_converter/gyre_unit_converter.py` (U).
Exact real arithmetic.  A figure is what is drawn: panels with curves, labels, limits, legend, title; fonts, ticks and layout are
left out.  In a run that raises, the figures finished before are kept; the one in work is not counted.
-/
namespace Verif.Comparer
noncomputable section

/-- Values of the dictionaries of loaded data: arrays of numbers, structured arrays with the fields `re` and `im`, numbers, text
(bytes or `str`). -/
inductive Val where
  | arr (a : List ℝ)
  | cplx (re im : List ℝ)
  | num (x : ℝ)
  | text (s : String)

/-- The exceptions. -/
inductive Err where
  | key (k : String) | index | type | value | unbound | exit
  deriving DecidableEq

/-- A dictionary of loaded data. -/
abbrev Dict := String → Option Val

/-- `d[k]`. -/
def look (d : Dict) (k : String) : Except Err Val :=
  match d k with
  | some v => .ok v
  | none => .error (.key k)

/-- `d[k] = v`. -/
def put (d : Dict) (k : String) (v : Val) : Dict := fun j => if j = k then some v else d j

/-- Limits of an axis given as dictionary or tuple (P:41-57); `none` leaves them alone. -/
abbrev Bounds := Option (ℝ × ℝ)

/-- One curve: abscissae, ordinates, entry of the legend. -/
structure Curve where
  x : Val
  y : Val
  label : Option String

/-- The title of a comparison (G:160-165). -/
structure Title where
  l : Val
  m : Val
  n : Val
  freqAd : Val
  freqNad : Val
  unit : String
  frame : String

/-- One panel. -/
structure Panel where
  curves : List Curve
  xLabel : Option String
  yLabel : String
  xLim : Bounds
  yLim : Bounds
  legend : Bool
  title : Option Title

/-- A figure: its panels from top to bottom. -/
abbrev Figure := List Panel

/-! ### Modes -/

/-- `_x['M_r'] / _x['M_star']` (G:56): an array by a number; other types are refused here. -/
def massOf (d : Dict) : Except Err Val := do
  match ← look d "M_r", ← look d "M_star" with
  | .arr a, .num M => .ok (.arr (a.map (· / M)))
  | _, _ => .error .type

/-- `_compute_mass_profiles` (G:52-57): the loop over the zipped lists; what is left of the longer one stays as it is. -/
def massProfiles : List Dict → List Dict → Except Err (List Dict × List Dict)
  | a :: as, b :: bs => do
    let ma ← massOf a
    let mb ← massOf b
    let r ← massProfiles as bs
    .ok (put a "mass" ma :: r.1, put b "mass" mb :: r.2)
  | as, bs => .ok (as, bs)

/-- `_quantity_getter` (G:61-84): `real_quantity` is `None`, true (the field `re`) or false (the field `im`); an array without
fields, and a number, raise IndexError, which is not the exception that is caught. -/
def quantity (d : Dict) (q : String) : Option Bool → Except Err Val
  | none => look d q
  | some r => do
    match ← look d q with
    | .cplx re im => .ok (.arr (if r then re else im))
    | .text _ => .error .type
    | _ => .error .index

/-- `GYREFreqUnitConverter.convert` (U:17-20, 35-42). -/
def unitText (s : String) : String :=
  if s = "CYC_PER_DAY" then "d$^{-1}$" else if s = "HZ" then "Hz" else if s = "UHZ" then "$\\mu$Hz"
  else if s = "RAD_PER_SEC" then "rad s$^{-1}$" else ""

/-- The title (G:160-165).  A unit that is not text cannot be a key of the enumeration, which gives the empty text; a frame that is
not text raises NotImplementedError. -/
def title (ad nad : Dict) : Except Err Title := do
  let l ← look ad "l"
  let m ← look ad "m"
  let n ← look ad "n_g"
  let fa ← look ad "freq"
  let fn ← look nad "freq"
  let u ← look ad "freq_units"
  let fr ← look ad "freq_frame"
  match fr with
  | .text t => .ok ⟨l, m, n, fa, fn, (match u with | .text s => unitText s | _ => ""), t.toLower⟩
  | _ => .error .type

/-- The title, if asked for (G:159). -/
def titleIf (use : Bool) (ad nad : Dict) : Except Err (Option Title) := if use then (title ad nad).map some else .ok none

/-- `ax.plot(x, y)` with abscissae and ordinates: both arrays of equal length, else an exception (complex arrays with fields and
texts are refused here). -/
def curve (x y : Val) (label : Option String) : Except Err Curve :=
  match x, y with
  | .arr a, .arr b => if a.length = b.length then .ok ⟨x, y, label⟩ else .error .value
  | _, _ => .error .type

/-- `_single_plot_fig_comp` (G:87-168) with mode number `k + 1`. -/
def panel (ads nads : List Dict) (xq yq : String) (rx ry : Option Bool) (xLabel yLabel : String) (k : ℕ) (xb yb : Bounds)
    (useTitle useX useLegend : Bool) : Except Err Panel :=
  match ads[k]?, nads[k]? with
  | some ad, some nad => do
    let xa ← quantity ad xq rx
    let ya ← quantity ad yq ry
    let ca ← curve xa ya (some "adiabatic")
    let xn ← quantity nad xq rx
    let yn ← quantity nad yq ry
    let cn ← curve xn yn (some "non-adiabatic")
    let t ← titleIf useTitle ad nad
    .ok ⟨[ca, cn], if useX then some xLabel else none, yLabel, xb, yb, useLegend, t⟩
  | _, _ => .error .index

/-- The argument `y_label` or `real_quantity_y` of `figure_comparison`: one value, or a list or tuple. -/
inductive OneOr (α : Type) where
  | one (a : α)
  | many (l : List α)

/-- `figure_comparison` (G:171-268).  With lists of which the labels are not two, the message of the error uses a name that has no
value yet (line 248: `length_reals` is only assigned if the first half of the condition holds).  A list of labels with one
`real_quantity_y` (or the reverse) is the single panel; a list as label is only reported (P:130-135) and left out: empty text here;
a list as `real_quantity_y` counts as true or false by its length. -/
def figureComparison (ads nads : List Dict) (xq yq : String) (rx : Option Bool) (ry : OneOr (Option Bool)) (xLabel : String)
    (yLabel : OneOr String) (k : ℕ) (xb yb : Bounds) : Except Err Figure :=
  match yLabel, ry with
  | .many [y0, y1], .many [r0, r1] => do
    let p0 ← panel ads nads xq yq rx r0 xLabel y0 k xb yb true false true
    let p1 ← panel ads nads xq yq rx r1 xLabel y1 k xb yb false true false
    .ok [p0, p1]
  | .many ys, .many _ => .error (if ys.length = 2 then .exit else .unbound)
  | yl, r => do
    let p ← panel ads nads xq yq rx (match r with | .one b => b | .many l => some (l ≠ [])) xLabel
      (match yl with | .one s => s | .many _ => "") k xb yb true true true
    .ok [p]

/-- A program that makes figures one after the other: those finished, and the exception that ended it, if any. -/
def draw : List (Except Err Figure) → List Figure × Option Err
  | [] => ([], none)
  | .error e :: _ => ([], some e)
  | .ok f :: r => (f :: (draw r).1, (draw r).2)

/-- The six calls of `generate_mode_eigenfunction_comparison_figures` (A:141-166) for the data of the plotter. -/
def comparisonCalls (ads nads : List Dict) (radius : Bool) : List (Except Err Figure) :=
  let xq := if radius then "x" else "mass"
  let xl := if radius then "r / R$_*$" else "m / M$_*$"
  (List.range 3).flatMap fun k =>
    [figureComparison ads nads xq "xi_r" none (.many [some true, some false]) xl (.many ["$Re[\\xi_R]$", "$Im[\\xi_R]$"]) k
       (some (0, 1)) none,
     figureComparison ads nads xq "xi_h" none (.many [some true, some false]) xl (.many ["$Re[\\xi_H]$", "$Im[\\xi_H]$"]) k
       (some (0, 1)) none]

/-- `load_modes` (A:120-122: the constructor of the plotter, G:42-49) followed by
`generate_mode_eigenfunction_comparison_figures`. -/
def compareModes (ads nads : List Dict) (radius : Bool) : List Figure × Option Err :=
  match massProfiles ads nads with
  | .error e => ([], some e)
  | .ok r => draw (comparisonCalls r.1 r.2 radius)

/-! ### Profiles of the stellar model -/

/-- Python's `max` of an array of numbers: the first number, replaced by every greater one; an empty array raises ValueError. -/
def pyMax : List ℝ → Except Err ℝ
  | [] => .error .value
  | a :: as => .ok (as.foldl (fun m x => if m < x then x else m) a)

/-- The column as an array; other values are refused here. -/
def column (d : Dict) (k : String) : Except Err (List ℝ) := do
  match ← look d k with
  | .arr a => .ok a
  | _ => .error .type

/-- `_normalizer` (P:61-94) for `None`, a name, and `(max, name)`. -/
inductive Norm where
  | none
  | by (k : String)
  | byMax (k : String)

/-- `_normalizer` (P:61-94).  Division by a column of another length raises ValueError (broadcasting of one value is left out). -/
def normalise (nq : Norm) (q : String) (d : Dict) : Except Err (List ℝ) :=
  match nq with
  | .none => column d q
  | .by k => do
    let a ← column d q
    let b ← column d k
    if a.length = b.length then .ok (List.zipWith (· / ·) a b) else .error .value
  | .byMax k => do
    let a ← column d q
    let b ← column d k
    let m ← pyMax b
    .ok (a.map (· / m))

/-- The argument `y_legend_label`: `None`, text or list. -/
inductive Leg where
  | none
  | one (s : String)
  | many (l : List String)

/-- `ax.plot` of two arrays. -/
def line (x y : List ℝ) (label : Option String) : Except Err Curve := curve (.arr x) (.arr y) label

/-- The curves of `_multi_profile_plot` for one column (M:42-96). -/
def oneProfile (q : String) (label : Option String) (ny : Norm) (xq : String) (nx : Norm) (d : Dict) : Except Err Curve := do
  let x ← normalise nx xq d
  let y ← normalise ny q d
  line x y label

/-- `_multi_profile_plot` (M:42-183): the six versions, selected by the types of the first two arguments.  A list of labels of
another length is only reported: no curve is drawn. -/
def multiProfile (yq : OneOr String) (leg : Leg) (ny : Norm) (xq : String) (nx : Norm) (d : Dict) (diff : Bool) :
    Except Err (List Curve) :=
  match yq, leg with
  | .one q, .one s => do .ok [← oneProfile q (some s) ny xq nx d]
  | .one q, .none => do .ok [← oneProfile q none ny xq nx d]
  | .many qs, .many ls =>
    if qs.length = ls.length then (qs.zip ls).mapM fun p => oneProfile p.1 (some p.2) ny xq nx d else .ok []
  | .one _, .many _ => .error .exit
  | .many _, .one _ => .error .exit
  | .many qs, .none =>
    if diff then do
      let x ← normalise nx xq d
      match qs with
      | q0 :: q1 :: _ => do
        let a ← column d q0
        let b ← column d q1
        if a.length = b.length then do .ok [← line x (List.zipWith (· - ·) a b) none] else .error .value
      | _ => .error .index
    else .error .exit

/-- `figure_profile` (M:186-255) with `mode_nr = k`. -/
def figureProfile (mesa : List Dict) (xq : String) (yq : OneOr String) (xLabel yLabel : String) (diff : Bool) (xb yb : Bounds)
    (k : ℕ) (leg : Leg) (nx ny : Norm) : Except Err Figure :=
  match mesa[k]? with
  | none => .error .index
  | some d => do
    let cs ← multiProfile yq leg ny xq nx d diff
    .ok [⟨cs, some xLabel, yLabel, xb, yb, (match leg with | .none => false | _ => true), none⟩]

/-- The eleven calls of `generate_profile_figures` (A:181-313). -/
def profileCalls (mesa : List Dict) (radius : Bool) : List (Except Err Figure) :=
  let xq := if radius then "radius" else "mass"
  let xl := if radius then "r / R$_*$" else "m / M$_*$"
  let fig := fun (yq : OneOr String) (leg : Leg) (yl : String) (diff : Bool) =>
    figureProfile mesa xq yq xl yl diff (some (0, 1)) none 0 leg (.byMax xq) .none
  [fig (.many ["h1", "h2", "he3", "he4"]) (.many ["h1", "h2", "he3", "he4"]) "x" false,
   fig (.many ["brunt_N2", "brunt_N2_structure_term", "brunt_N2_composition_term"])
     (.many ["N$^2$", "N$^2_{structure}$", "N$^2_{composition}$"]) "N$^2$" false,
   fig (.one "lamb_S2") .none "S$^2$" false,
   fig (.one "csound") .none "c$_{s}$" false,
   fig (.many ["hyeq_lhs", "hyeq_rhs"]) .none "lhs - rhs" true,
   fig (.one "gamma_1_adDer") .none "(d$\\Gamma_1$/dr)$_S$" false,
   fig (.many ["log_D_mix", "log_D_conv", "log_D_ovr", "log_D_minimum"])
     (.many ["log_D_mix", "log_D_conv", "log_D_ovr", "log_D_min"]) "log D" false,
   fig (.one "pressure") .none "P" false,
   fig (.one "logRho") .none "log $\\rho$" false,
   fig (.one "logT") .none "log T" false,
   fig (.many ["grada", "gradT", "gradr"]) (.many ["$\\Delta_a$", "$\\Delta_T$", "$\\Delta_r$"]) "$\\Delta$" false]

/-- `generate_profile_figures` (A:170-313) for the profiles of the plotter. -/
def profileFigures (mesa : List Dict) (radius : Bool) : List Figure × Option Err := draw (profileCalls mesa radius)

end
end Verif.Comparer
