import Verif.AngInt.Model
/-!
# Model of the quadratic coupling coefficient of rotating stars

`aesolver/aesolver/coupling_coefficients/quadratic_coupling_coefficient_rotating.py`, the part that
turns the stored profiles of three modes into the coupling coefficient, its radial profile and the mode
energies.  Exact real arithmetic, `use_complex = False`; `none` is any way of not returning a value
(an exception or the end of the program).
-/
namespace Verif.Coupling
noncomputable section
open Real

/-- The attribute name of a quantity of one mode (lines 683, 689, 721). -/
def name (base : String) (k : ℕ) : String := base ++ "_mode_" ++ toString k

/-- What the computation reads from the object. -/
structure Obj where
  /-- the array stored under an attribute name, if there is one -/
  attr : String → Option (List ℝ)
  /-- `_mu_values` -/
  mu : List ℝ
  /-- `_x`, the radial grid -/
  x : List ℝ
  /-- `_m_list` -/
  mList : List ℤ
  /-- `_conj_cc` -/
  conj : AngInt.Conj
  /-- `_self_coupling` -/
  selfCoupling : Bool := false
  /-- `_numerical_integration_method` -/
  method : String := "trapz"
  /-- `_omp_threads` -/
  threads : ℤ := 4
  /-- `_use_parallel` -/
  parallel : Bool := false
  /-- `_use_cheby` -/
  useCheby : Bool := false
  /-- `_cheby_order_mul` -/
  orderMul : ℕ := 4
  /-- `_cheby_blow_up` -/
  protect : Bool := false
  /-- `_cheby_blow_up_fac` -/
  blowUp : ℝ := 1000
  /-- `_use_polytropic` -/
  polytropic : Bool := false
  /-- `_P_normed` -/
  PNormed : List ℝ
  /-- `_rho_normed` -/
  rhoNormed : List ℝ
  /-- `_Gamma_1` -/
  Gamma1 : List ℝ
  /-- `_rho` and `_gamma_1_adDer_profile`; `none` when an attribute is missing -/
  rhoGammaDer : Option (List ℝ × List ℝ)
  /-- `_dgravpot` -/
  dgrav : List ℝ
  /-- `_dgravpot2` -/
  dgrav2 : List ℝ
  /-- `_dgravpot3` -/
  dgrav3 : List ℝ
  /-- `_norm_P` -/
  normP : ℝ
  /-- `_norm_rho` -/
  normRho : ℝ
  /-- `_R_star` -/
  R : ℝ

/-- The conjugation stored by the constructor (line 307): a false value, that is None, False or the
empty tuple, becomes `(True, False, False)`. -/
def conjCC : AngInt.Conj → AngInt.Conj
  | .none => .tuple [true, false, false]
  | .flag false => .tuple [true, false, false]
  | .tuple [] => .tuple [true, false, false]
  | c => c

/-- Three names, one for each mode. -/
abbrev Term := String × String × String

/-- A numpy slice `[:i]` (`none` is `[:]`). -/
def cut {α : Type} (idx : Option ℕ) (l : List α) : List α := match idx with
  | none => l
  | some i => l.take i

/-- `_compute_radial_integral_real` (lines 1240-1270, 1309-1334); the equal-spacing flag is the literal
False.  The parts of complex numbers are not modelled, `_use_complex` being off. -/
def radint (o : Obj) (integrand var : List ℝ) (idx : Option ℕ) : Option ℝ :=
  (NumInt.cniIntegrate NumInt.mapper0 o.method false (cut idx integrand) (cut idx var) o.threads o.parallel).1

/-- Element-wise product of arrays. -/
def mul (a b : List ℝ) : List ℝ := List.zipWith (· * ·) a b

/-- `_rad_int` (lines 665-700).  Arrays of different lengths raise (numpy would broadcast an array of
length one; that is not modelled). -/
def radInt (o : Obj) (t : Term) (mult : List ℝ) (idx : Option ℕ) : Option ℝ := do
  let p1 ← o.attr (name t.1 1)
  let p2 ← o.attr (name t.2.1 2)
  let p3 ← o.attr (name t.2.2 3)
  if p2.length = p1.length ∧ p3.length = p1.length ∧ mult.length = p1.length ∧ o.x.length = p1.length then
    radint o (mul (mul (mul (mul p1 p2) p3) mult) (o.x.map fun v => v ^ 2)) o.x idx
  else none

/-- The object as the angular integrals see it. -/
def angObj (o : Obj) : AngInt.Obj := ⟨o.attr, o.mu⟩

/-- The keyword arguments passed to the angular integrals (e.g. lines 801-815). -/
def angOpts (o : Obj) (div : Bool) : AngInt.Opts :=
  { divBySin := div, mulWithMu := false, method := o.method, useCheby := o.useCheby, orderMul := o.orderMul,
    protect := o.protect, blowUp := o.blowUp }

/-- The value of a call that returns one. -/
def val : AngInt.Res ℝ → Option ℝ
  | .ok v => some v
  | _ => none

/-- One call of `quadratic_angular_integral` for the descriptors of three modes, with
`_map_hough_to_mode(…, [1, 2, 3])` (lines 703-728, 796-815). -/
def angInt (o : Obj) (t : Term) (div : Bool) : Option ℝ :=
  val (AngInt.angularIntegral (angObj o) [name ("_" ++ t.1) 1, name ("_" ++ t.2.1) 2, name ("_" ++ t.2.2) 3]
    (some o.mList) false o.conj (angOpts o div))

/-- `itertools.permutations` of three elements, in its order. -/
def permutations (t : Term) : List Term :=
  let (a, b, c) := t
  [(a, b, c), (a, c, b), (b, a, c), (b, c, a), (c, a, b), (c, b, a)]

/-- `operator_dict[key].append(i)` on a `defaultdict(list)`. -/
def insertAppend : List (Term × List ℕ) → Term → ℕ → List (Term × List ℕ)
  | [], k, i => [(k, [i])]
  | (k', l) :: d, k, i => if k' = k then (k', l ++ [i]) :: d else (k', l) :: insertAppend d k i

/-- `_symmetry_mapping` (lines 731-753), a dictionary in insertion order. -/
def symmetryMapping (t : Term) : List (Term × List ℕ) :=
  (permutations t).zipIdx.foldl (fun d p => insertAppend d p.1 p.2) []

/-- Filling one column of a result array: for every key of the dictionary the value is computed once and
written at all its indices (lines 796-824); `garbage` is the content of `np.empty(6)`. -/
def fill (garbage : List ℝ) (d : List (Term × List ℕ)) (f : Term → Option ℝ) : Option (List ℝ) :=
  d.foldlM (fun arr e => do
    let v ← f e.1
    pure (e.2.foldl (fun a i => a.set i v) arr)) garbage

/-- The two shapes of `radial_terms`. -/
inductive Rad
  | one (t : Term)
  | many (ts : List Term)

/-- The two shapes of `angular_terms` with the matching `div_by_sin`. -/
inductive Ang
  | one (t : Term) (div : Bool)
  | many (ts : List Term) (div : List Bool)

/-- The radial columns: `rad_factor[i]` times the integral of every permutation (lines 817-824, 895-906);
a list of factors that is too short raises. -/
def radColumns (o : Obj) (garbage : List ℝ) (r : Rad) (mult : List ℝ) (factor : List ℝ) (idx : Option ℕ) :
    Option (List (List ℝ)) :=
  let column (t : Term) (i : ℕ) : Option (List ℝ) := fill garbage (symmetryMapping t) fun key => do
    let g ← factor[i]?
    let v ← radInt o key mult idx
    pure (g * v)
  match r with
  | .one t => (column t 0).map fun c => [c]
  | .many ts => ts.zipIdx.mapM fun p => column p.1 p.2

/-- The angular columns (lines 796-815, 969-994). -/
def angColumns (o : Obj) (garbage : List ℝ) (a : Ang) (factor : List ℝ) : Option (List (List ℝ)) :=
  let column (t : Term) (div : Bool) (i : ℕ) : Option (List ℝ) := fill garbage (symmetryMapping t) fun key => do
    let g ← factor[i]?
    let v ← angInt o key div
    pure (g * v)
  match a with
  | .one t div => (column t div 0).map fun c => [c]
  | .many ts div => ts.zipIdx.mapM fun p => do
    let d ← div[p.2]?
    column p.1 d p.2

/-- `np.dot` of two columns. -/
def dot (a b : List ℝ) : ℝ := (List.zipWith (· * ·) a b).sum

/-- `_overloaded_symmetry_determiner` (lines 756-1062).  All four overloads fill the columns and return
the sum over all pairs of a radial and an angular column of the sum over the six rows (`np.dot`, the sum
of the broadcast product, or `einsum('ji,jk->ik').sum()`).  The order of the additions is that of the
last overload.  Result arrays keep the real values. -/
def symmetryDeterminer (o : Obj) (g1 g2 : List ℝ) (a : Ang) (r : Rad) (mult : List ℝ)
    (angFactor radFactor : List ℝ) (idx : Option ℕ) : Option ℝ := do
  let acols ← angColumns o g1 a angFactor
  let rcols ← radColumns o g2 r mult radFactor idx
  pure ((rcols.map fun rc => (acols.map fun ac => dot rc ac).sum).sum)

/-- `_symmetrization_s_term_integral` (lines 1065-1186).  In the self-coupling branch the factors are not
used. -/
def sTerm (o : Obj) (g1 g2 : List ℝ) (r : Rad) (mult : List ℝ) (a : Ang) (angFactor radFactor : List ℝ)
    (idx : Option ℕ) : Option ℝ :=
  if o.selfCoupling then do
    let ang ← match a with
      | .many ts div => (List.zip ts div).foldlM (fun acc p => do
          let v ← angInt o p.1 p.2
          pure (acc + v)) 0
      | .one t div => angInt o t div
    if ang = 0 then pure 0
    else do
      let rad ← match r with
        | .many ts => ts.foldlM (fun acc t => do
            let v ← radInt o t mult idx
            pure (acc + v)) 0
        | .one t => radInt o t mult idx
      pure (rad * ang * 6)
  else symmetryDeterminer o g1 g2 a r mult angFactor radFactor idx

/-- `self._P_normed * (self._Gamma_1 - 1.0)` (line 1417). -/
def mult1 (o : Obj) : List ℝ := mul o.PNormed (o.Gamma1.map fun g => g - 1)

/-- The multiplier of the second term (lines 1516-1530). -/
def mult2 (o : Obj) : List ℝ :=
  let gam := o.Gamma1.map fun g => (g - 1) ^ 2
  if o.polytropic then mul o.PNormed gam
  else match o.rhoGammaDer with
    | some (rho, der) => mul o.PNormed (List.zipWith (· + ·) gam (mul rho der))
    | none => mul o.PNormed gam

/-- The two multipliers of the fourth term (lines 1803-1829); division by a zero radius gives 0 here and
an infinity in the program. -/
def mult4 (o : Obj) : List ℝ := mul o.rhoNormed (o.x.map fun v => v ^ 3)
def mult4a (o : Obj) : List ℝ :=
  let radius := o.x.map fun v => v * o.R
  mul (mult4 o) (List.zipWith (· + ·) (mul (radius.map fun v => -1 / v ^ 2) o.dgrav)
    (mul (radius.map fun v => 1 / v) o.dgrav2))
def mult4b (o : Obj) : List ℝ := mul (mult4 o) o.dgrav3

/-- Uninitialised contents of the result arrays, for every symmetrised term. -/
abbrev Garbage := ℕ → List ℝ × List ℝ

/-- A symmetrised term with angular terms, `div_by_sin` flags and angular factors given together, and the
default radial factor. -/
def sym (o : Obj) (g : Garbage) (n : ℕ) (r : Term) (mult : List ℝ) (angs : List (Term × Bool × ℝ))
    (idx : Option ℕ) : Option ℝ :=
  sTerm o (g n).1 (g n).2 (.one r) mult (.many (angs.map (·.1)) (angs.map (·.2.1))) (angs.map (·.2.2)) [1] idx

/-- A symmetrised term with a single angular term and default factors. -/
def sym1 (o : Obj) (g : Garbage) (n : ℕ) (r : Term) (mult : List ℝ) (ang : Term) (idx : Option ℕ) : Option ℝ :=
  sTerm o (g n).1 (g n).2 (.one r) mult (.one ang false) [1] [1] idx

/-- `_kappa_1_abc` (lines 1403-1499). -/
def kappa1 (o : Obj) (g : Garbage) (idx : Option ℕ) : Option ℝ := do
  let m := mult1 o
  let s1 ← sym1 o g 0 ("_rad_der_x_z_1", "_rad_der_x_z_1", "_rad_diverg") m ("hr", "hr", "hr") idx
  let s2 ← sym o g 1 ("_z_2_over_c_1_omega", "_z_2_over_c_1_omega", "_rad_diverg") m
    [(("theta_der_ht_theta", "theta_der_ht_theta", "hr"), false, 1), (("phi_phi", "phi_phi", "hr"), false, 1),
     (("theta_phi", "theta_der_hp_theta", "hr"), true, -2)] idx
  let s3 ← sym1 o g 2 ("_z_1", "_z_1", "_rad_diverg") m ("hr", "hr", "hr") idx
  let s4 ← sym o g 3 ("_z_2_over_c_1_omega", "_z_1", "_rad_diverg") m
    [(("theta_der_ht_theta", "hr", "hr"), false, 1), (("phi_phi", "hr", "hr"), false, 1)] idx
  let s5 ← sym o g 4 ("_z_1", "_rad_der_x_z_2_c_1_omega", "_rad_diverg") m
    [(("theta_der_hr_theta", "ht", "hr"), false, 1), (("mhr", "hp", "hr"), true, -1)] idx
  let s6 ← sym o g 5 ("_rad_diverg", "_z_2_over_c_1_omega", "_rad_der_x_z_2_c_1_omega") m
    [(("hr", "ht", "ht"), false, -1), (("hr", "hp", "hp"), false, 1)] idx
  pure (1 / 2 * (1 / 2 * s1 + 1 / 2 * s2 + s3 + s4 + s5 + s6) * (o.normP * o.R ^ 3))

/-- `_kappa_2_abc` (lines 1502-1563). -/
def kappa2 (o : Obj) (idx : Option ℕ) : Option ℝ := do
  let rad ← radInt o ("_rad_diverg", "_rad_diverg", "_rad_diverg") (mult2 o) idx
  let ang ← angInt o ("hr", "hr", "hr") false
  pure (rad * ang * (1 / 2) * (o.normP * o.R ^ 3))

/-- `_kappa_3_abc` (lines 1566-1787). -/
def kappa3 (o : Obj) (g : Garbage) (idx : Option ℕ) : Option ℝ := do
  let m := o.PNormed
  let s1 ← sym o g 6 ("_rad_der_x_z_1", "_z_1", "_rad_der_x_z_2_c_1_omega") m
    [(("hr", "theta_der_hr_theta", "ht"), false, 1), (("hr", "mhr", "hp"), true, -1)] idx
  let s2 ← sym o g 7 ("_rad_der_x_z_1", "_z_2_over_c_1_omega", "_rad_der_x_z_2_c_1_omega") m
    [(("hr", "ht", "ht"), false, -1), (("hr", "hp", "hp"), false, 1)] idx
  let s3 ← sym o g 8 ("_z_1", "_z_1", "_rad_der_x_z_2_c_1_omega") m
    [(("theta_der_hr_theta", "hr", "ht"), false, 1), (("mhr", "hr", "hp"), true, -1)] idx
  let s4 ← sym o g 9 ("_z_1", "_z_2_over_c_1_omega", "_rad_der_x_z_2_c_1_omega") m
    [(("hr", "ht", "ht"), false, -1), (("theta_der_hr_theta", "theta_der_ht_theta", "ht"), false, 1),
     (("hr", "hp", "hp"), false, 1), (("mhr", "phi_phi", "hp"), true, -1),
     (("mhr", "theta_der_hp_theta", "ht"), true, -1), (("theta_der_hr_theta", "theta_phi", "hp"), true, -1)] idx
  let s5 ← sym o g 10 ("_z_2_over_c_1_omega", "_z_2_over_c_1_omega", "_rad_der_x_z_2_c_1_omega") m
    [(("ht", "theta_der_ht_theta", "ht"), false, -1), (("hp", "phi_phi", "hp"), false, 1),
     (("hp", "theta_der_hp_theta", "ht"), false, 1), (("theta_phi", "ht", "hp"), true, 1)] idx
  let s6 ← sym o g 11 ("_z_1", "_z_2_over_c_1_omega", "_z_2_over_c_1_omega") m
    [(("hr", "theta_phi", "theta_der_hp_theta"), true, -2), (("hr", "phi_phi", "phi_phi"), false, 1),
     (("hr", "theta_der_ht_theta", "theta_der_ht_theta"), false, 1)] idx
  let s7 ← sym o g 12 ("_z_2_over_c_1_omega", "_z_2_over_c_1_omega", "_z_2_over_c_1_omega") m
    [(("theta_der_ht_theta", "theta_phi", "theta_der_hp_theta"), true, -1),
     (("theta_der_hp_theta", "theta_phi", "phi_phi"), true, -1)] idx
  let s8 ← sym o g 13 ("_z_1", "_z_1", "_z_2_over_c_1_omega") m
    [(("hr", "hr", "theta_der_ht_theta"), false, 1), (("hr", "hr", "phi_phi"), false, 1)] idx
  let r1 ← radInt o ("_rad_der_x_z_1", "_rad_der_x_z_1", "_rad_der_x_z_1") m idx
  let r2 ← radInt o ("_z_1", "_z_1", "_z_1") m idx
  let a12 ← angInt o ("hr", "hr", "hr") false
  let r34 ← radInt o ("_z_2_over_c_1_omega", "_z_2_over_c_1_omega", "_z_2_over_c_1_omega") m idx
  let a3 ← angInt o ("phi_phi", "phi_phi", "phi_phi") false
  let a4 ← angInt o ("theta_der_ht_theta", "theta_der_ht_theta", "theta_der_ht_theta") false
  pure (1 / 2 * (a12 * (2 * r1 + 4 * r2) + 2 * r34 * (a3 + a4) + (s1 + s2 + s3 + s4 + s5 + s6 + s7 + s8)) *
    (o.normP * o.R ^ 3))

/-- `_kappa_4_abc` (lines 1790-1850). -/
def kappa4 (o : Obj) (g : Garbage) (idx : Option ℕ) : Option ℝ := do
  let s ← sym o g 14 ("_z_1", "_z_2_over_c_1_omega", "_z_2_over_c_1_omega") (mult4a o)
    [(("hr", "ht", "ht"), false, 1), (("hr", "hp", "hp"), false, -1)] idx
  let r ← radInt o ("_z_1", "_z_1", "_z_1") (mult4b o) idx
  let a ← angInt o ("hr", "hr", "hr") false
  pure (-(1 / 2) * (1 / 2 * s + r * a) * (o.normRho * o.R ^ 6))

/-- `adiabatic_coupling_rot` (lines 1853-1885): the stored `_cc_term_1 … 4` and `_coupling_coefficient`;
an integer argument `i` means the slice `[:i]`. -/
def coupling (o : Obj) (g : Garbage) (idx : Option ℕ) : Option (ℝ × List ℝ) := do
  let k1 ← kappa1 o g idx
  let k2 ← kappa2 o idx
  let k3 ← kappa3 o g idx
  let k4 ← kappa4 o g idx
  pure (k1 + k2 + k3 + k4, [k1, k2, k3, k4])

/-- `_coupling_coefficient_integrated` as filled by `adiabatic_coupling_rot_profile` (lines 1888-1946):
zeros, then entry `i - 1` from the call with `indexer = i`, for `i = 2 … n`.  `g i` are the uninitialised
arrays of that call. -/
def profile (o : Obj) (g : ℕ → Garbage) : Option (List ℝ) :=
  (List.range' 2 (o.x.length - 1)).foldlM (fun arr i => do
    let c ← coupling o (g i) (some i)
    pure (arr.set (i - 1) c.1)) (o.x.map fun _ => 0)

/-- The angular integrals of the mode norms (lines 1211-1225, 1358-1372): both descriptors of the same
mode, no azimuthal check. -/
def angNorm (o : Obj) (d1 d2 : String) (k : ℕ) (mulMu : Bool) (conj : AngInt.Conj) : Option ℝ :=
  val (AngInt.angularIntegral (angObj o) [name ("_" ++ d1) k, name ("_" ++ d2) k] none false conj
    { angOpts o false with mulWithMu := mulMu })

/-- The radial integral of the mode norms (lines 1227-1233, 1374-1381). -/
def radNorm (o : Obj) (r : String) (k : ℕ) : Option ℝ := do
  let p ← o.attr (name r k)
  if p.length = o.x.length ∧ o.rhoNormed.length = o.x.length then
    radint o (mul (mul o.rhoNormed (o.x.map fun v => v ^ 2)) (p.map fun v => v ^ 2)) o.x none
  else none

/-- `_compute_traditional_norms_modes` (lines 1188-1237). -/
def classicNorm (o : Obj) (k : ℕ) : Option ℝ := do
  let a1 ← angNorm o "hr" "hr" k false (.flag false)
  let r1 ← radNorm o "_x_z_1" k
  let a2 ← angNorm o "ht" "ht" k false (.flag false)
  let r2 ← radNorm o "_x_z_2_over_c_1_omega" k
  let a3 ← angNorm o "hp" "hp" k false (.flag false)
  let r3 ← radNorm o "_x_z_2_over_c_1_omega" k
  pure ((a1 * r1 + a2 * r2 + a3 * r3) * 2 * π)

/-- `compute_b_a_mode_energy` (lines 1344-1399): `(b_a, energy)` of a mode; `omegaRot` is the surface
rotation frequency and `omega` the co-rotating mode frequency. -/
def modeEnergy (o : Obj) (omegaRot omega : ℝ) (k : ℕ) : Option (ℝ × ℝ) := do
  let n ← classicNorm o k
  let a ← angNorm o "ht" "hp" k true .none
  let r ← radNorm o "_x_z_2_over_c_1_omega" k
  let b := (r * a * 8 * π * omegaRot + 2 * omega * n) * (o.normRho * o.R ^ 5)
  pure (b, omega * b)

end
end Verif.Coupling
