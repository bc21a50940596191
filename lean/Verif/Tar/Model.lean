import Mathlib.Data.Real.Sqrt
/-!
# Model of the TAR-validity zones and of the coupling coefficient adjusted for them

* `aesolver/aesolver/solver/quadratic_profile.py` (QP below), `get_masking_info_tar_validity`, 122-315 (the
  copy in `quadratic_solver.py` is textually identical).
* `aesolver/aesolver/solver/profile_plot_classes/coupling_coefficient_plots/plot_template.py` (PT below).
* `aesolver/aesolver/solver/profile_print_functions/coupling_coefficient_print_functions.py` (PP below).

Simplifications: `float64` is `ℝ` in the checks and an arbitrary field in the profile; NaN is `none`; infinities
do not occur.  The figures that are drawn from the profiles are not modelled.
-/
namespace Verif.Tar

/-- What QP:122-315 reads: `_brunt_N2_profile`, `surf_rot_angular_freq_rps`, `angular_conv_factor_from_rps`,
`_corot_mode_omegas`, `_quality_factors`. -/
structure Inp where
  n2 : List ℝ
  rotRps : ℝ
  conv : ℝ
  omegas : List ℝ
  qfac : List ℝ

/-- `np.sqrt`, QP:141: NaN for a negative argument. -/
noncomputable def bruntRps (x : ℝ) : Option ℝ := if 0 ≤ x then some (√x) else none

/-- `a > b`, false when `a` is NaN. -/
noncomputable def gtNan (a : Option ℝ) (b : ℝ) : Bool :=
  match a with
  | some a => decide (b < a)
  | none => false

/-- `tar_rotation_check`, QP:142-150. -/
noncomputable def rotCheck (i : Inp) : List Bool :=
  i.n2.map fun x => gtNan ((bruntRps x).map fun b => |0.1 * b|) |2.0 * i.rotRps|

/-- `tar_individual_freq_check`, QP:146, 151-154. -/
noncomputable def indCheck (i : Inp) : List Bool :=
  i.n2.map fun x => i.omegas.all fun w => gtNan ((bruntRps x).map fun b => |0.1 * i.conv * b|) |w|

/-- `tar_valid`, QP:155-157. -/
noncomputable def tarValid (i : Inp) : List Bool := List.zipWith (· && ·) (rotCheck i) (indCheck i)

/-- `slow_manifold_check`, QP:137-139. -/
noncomputable def slowManifold (i : Inp) : Bool := i.qfac.all fun q => decide (10.0 < |q|)

/-- `mask.nonzero()[0]`. -/
def nonzero (m : List Bool) : List ℕ := (List.range m.length).filter fun k => m.getD k false

/-- `_mask_start_validity`, QP:159-161. -/
def starts (v : List Bool) : List ℕ :=
  (nonzero (List.zipWith (fun a b => !a && b) v.dropLast v.tail)).map (· + 1)

/-- `_mask_end_validity`, QP:162-164. -/
def ends (v : List Bool) : List ℕ :=
  nonzero (List.zipWith (fun a b => a && !b) v.dropLast v.tail)

/-- `np.unique` of a boolean array. -/
def uniqueB (l : List Bool) : List Bool := [false, true].filter fun c => l.contains c

/-- A Python slice `start:stop` with non-negative bounds. -/
structure Slice where
  start : Option ℕ
  stop : Option ℕ
deriving DecidableEq, Repr

/-- The half-open index range selected by a slice in an array of length `n`; bounds are clipped. -/
def Slice.range (n : ℕ) (s : Slice) : ℕ × ℕ := (min (s.start.getD 0) n, min (s.stop.getD n) n)

/-- The two ways the method raises `PhysicsError` for reasons of its own, and the branch the authors call weird,
QP:167-170, 203-206, 303-306. -/
inductive PhysErr | notSlow | unclear | weird
deriving DecidableEq, Repr

/-- The warning that is logged. -/
inductive Warn
  | individual | coriolis | both
  | coreSurfValid | coreSurfInvalid | surfValid | coreValid
deriving DecidableEq, Repr

/-- The returned tuple, QP:308-314, and the warning.  A mask is `none` for `np.s_[None]`. -/
structure Res where
  valid : List Bool
  nonIdx : List (ℕ × ℕ)
  vMasks : List (Option Slice)
  nMasks : List (Option Slice)
  fully : Bool
  warn : Warn

/-- The slice `_s : (_e + 1)`. -/
def sl (s e : ℕ) : Option Slice := some ⟨some s, some (e + 1)⟩

/-- The slice `(_e + 1) : _s`. -/
def slN (s e : ℕ) : Option Slice := some ⟨some (e + 1), some s⟩

/-- The choice of the warning when there are no zones, QP:175-206. -/
def noZoneWarn (ind rot : List Bool) : Except PhysErr Warn :=
  let iu := uniqueB ind
  let ru := uniqueB rot
  if iu.length = 1 ∧ ru.length ≠ 1 ∧ iu.head? = some false then .ok .individual
  else if iu.length ≠ 1 ∧ ru.length = 1 ∧ ru.head? = some false then .ok .coriolis
  else if iu.length = 1 ∧ ru.length = 1 ∧ ru.head? = some false ∧ iu.head? = some false then .ok .both
  else .error .unclear

/-- QP:166-315 as a function of the computed checks (`v` is `tar_valid`, `len(brunt_rps)` is its length). -/
def zonesOf (slow : Bool) (rot ind v : List Bool) : Except PhysErr Res :=
  let S := starts v
  let E := ends v
  let n := v.length
  if slow = false then .error .notSlow
  else if S.length = 0 ∧ E.length = 0 then
    match noZoneWarn ind rot with
    | .error e => .error e
    | .ok w => .ok { valid := v, nonIdx := [(0, n - 1)], vMasks := [none], nMasks := [some ⟨none, none⟩],
                     fully := true, warn := w }
  else if S.length = E.length then
    if S.headD 0 > E.headD 0 then
      .ok { valid := v
            vMasks := [some ⟨none, some (E.headD 0 + 1)⟩] ++ List.zipWith sl S.dropLast E.tail
              ++ [some ⟨some (S.getLastD 0), none⟩]
            nonIdx := List.zipWith (fun s e => (e + 1, s)) S E
            nMasks := List.zipWith slN S E
            fully := false, warn := .coreSurfValid }
    else
      .ok { valid := v
            vMasks := List.zipWith sl S E
            nonIdx := [(0, S.headD 0)] ++ List.zipWith (fun s e => (e + 1, s)) S.tail E.dropLast
              ++ [(E.getLastD 0 + 1, n - 1)]
            nMasks := [some ⟨none, some (S.headD 0)⟩] ++ List.zipWith slN S.tail E.dropLast
              ++ [some ⟨some (E.getLastD 0 + 1), none⟩]
            fully := false, warn := .coreSurfInvalid }
  else if S.length = E.length + 1 then
    .ok { valid := v
          vMasks := List.zipWith sl S.dropLast E ++ [some ⟨some (S.getLastD 0), none⟩]
          nonIdx := [(0, S.headD 0)] ++ List.zipWith (fun s e => (e + 1, s)) S.tail E
          nMasks := [some ⟨none, some (S.headD 0)⟩] ++ List.zipWith slN S.tail E
          fully := false, warn := .surfValid }
  else if S.length + 1 = E.length then
    .ok { valid := v
          vMasks := [some ⟨none, some (E.headD 0 + 1)⟩] ++ List.zipWith sl S E.tail
          nonIdx := List.zipWith (fun s e => (e + 1, s)) S E.dropLast ++ [(E.getLastD 0 + 1, n - 1)]
          nMasks := List.zipWith slN S E.dropLast ++ [some ⟨some (E.getLastD 0 + 1), none⟩]
          fully := false, warn := .coreValid }
  else .error .weird

/-- `get_masking_info_tar_validity`, QP:122-315. -/
noncomputable def masking (i : Inp) : Except PhysErr Res :=
  zonesOf (slowManifold i) (rotCheck i) (indCheck i) (tarValid i)

section Adjust
variable {K : Type} [Field K]

/-- `get_contribution_due_to_convective_zone`, PT:34-55; `none` is `IndexError`. -/
def contribution (z : ℕ × ℕ) (q : List K) : Option K :=
  q[z.1]?.bind fun a => q[z.2]?.bind fun b => some (b - a)

/-- `np.cumsum` started at `acc`. -/
def cumsumFrom (acc : K) : List K → List K
  | [] => []
  | x :: l => (acc + x) :: cumsumFrom (acc + x) l

/-- `np.cumsum`, PT:233, 344. -/
def cumsum (l : List K) : List K := cumsumFrom 0 l

/-- Whether index `j` is selected by the mask in an array of length `n` (`None` selects everything). -/
def sel (n : ℕ) (m : Option Slice) (j : ℕ) : Bool :=
  match m with
  | none => true
  | some s => decide ((s.range n).1 ≤ j ∧ j < (s.range n).2)

/-- `p[mask] = …` with the new value of index `j` given by `f j`. -/
def setMask (p : List K) (m : Option Slice) (f : ℕ → K) : List K :=
  p.mapIdx fun j x => if sel p.length m j then f j else x

/-- The loop over the invalid zones, PT:260-268, 360-368, from zone `i` on; `prev` is
`_summed_contributions[_i - 1]` (zero, hence not subtracted, for the first zone). -/
def invalidLoop (summed : List K) : ℕ → List (Option Slice × K) → List K → List K
  | _, [], p => p
  | i, (m, c) :: l, p =>
    invalidLoop summed (i + 1) l
      (setMask p m fun _ => if i > 0 then c - summed.getD (i - 1) 0 else c)

/-- The loop over the valid zones, PT:272-277, 369-374. -/
def validLoop (y : List K) : List (K × Option Slice) → List K → List K
  | [], p => p
  | (a, m) :: l, p => validLoop y l (setMask p m fun j => y.getD j 0 - a)

/-- What `double_masking_…` returns for one profile, PT:415-420 (without the figure), and the adjusted profile it
draws. -/
structure Adj (K : Type) where
  value : K
  adjusted : K
  contributions : List K
  profile : List K

/-- `double_masking_integrated_radial_profile_figure_template_function` for one profile, PT:334-420;
`_adjusted_core_profile` is computed and never used. -/
def adjust (r : Res) (y : List K) : Option (Adj K) :=
  (r.nonIdx.mapM fun z => contribution z y).bind fun cs =>
  let summed := cumsum cs
  (r.nonIdx.mapM fun z => y[z.1]?).bind fun yInv =>
  let p0 := y.map fun _ => (0 : K)
  let prof := if r.fully then p0 else
    validLoop y (summed.zip r.vMasks) (invalidLoop summed 0 (r.nMasks.zip yInv) p0)
  y.getLast?.bind fun yl =>
  summed.getLast?.bind fun sl =>
  some { value := yl, adjusted := yl - sl, contributions := cs, profile := prof }

/-- The branch for a list of profiles, PT:220-332: the same steps for each profile. -/
def adjustAll (r : Res) (ys : List (List K)) : Option (List (Adj K)) := ys.mapM (adjust r)

/-- `print_normed_cc_and_get_adjust_ratio`, PP:19-27 (the division is exact; a zero coefficient is outside). -/
def adjustRatio (cc adj : K) : K := adj / cc

end Adjust
end Verif.Tar
