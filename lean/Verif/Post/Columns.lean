import Verif.Post.Claims
import Mathlib.Tactic.FinCases
import Mathlib.Tactic.FieldSimp
import Mathlib.Tactic.Linarith
/-!
# C163: the derived columns of analyzer and plotter, by name

`_compute_frequency_data` (AN:235-370, PL:319-463), `_compute_driv_damp_info` (AN:392-417, PL:485-503), `_compute_freq_shifts`
(AN:489-526, PL:585-622), `_compute_dimensionless_validity_estimators` (AN:556-574), the flat ratios (AN:471-476, PL:557-562),
on the rows of `Post/Model.lean`.  A data dictionary is the list of its assignments.
-/
namespace Verif.Post
noncomputable section

/-- A row with the additional key `corot_mode_freqs`. -/
structure Row extends Triad where
  corotF : Fin 3 → ℝ

/-- An array: one number per entry, or two columns. -/
inductive Col where
  | vec (l : List Num)
  | two (l : List (Num × Num))

/-- `X[:, 0]`. -/
def parentCol (rows : List Row) (f : Row → Fin 3 → ℝ) (conv : ℝ → ℝ) : Col := .vec (rows.map fun t => some (conv (f t 0)))

/-- `X[:, 1:]`, or `X[:, 1:].reshape(-1,)`, which runs along the rows. -/
def daughterCol (og : Bool) (rows : List Row) (f : Row → Fin 3 → ℝ) (conv : ℝ → ℝ) : Col :=
  if og then .two (rows.map fun t => (some (conv (f t 1)), some (conv (f t 2))))
  else .vec (rows.flatMap fun t => [some (conv (f t 1)), some (conv (f t 2))])

/-- The frequency keys that are always computed (AN:240-288, PL:324-372), without spin parameters and the ratio to the smallest
frequency (see `diffToMin`, `spin`). -/
def basicColumns (og : Bool) (rows : List Row) : List (String × Col) :=
  let omegas (t : Row) := t.corot
  [("corot_mode_omegas_p_muHz", parentCol rows omegas hzToMuhz),
   ("corot_mode_omegas_p_cpd", parentCol rows omegas hzToCpd),
   ("corot_mode_omegas_d_muHz", daughterCol og rows omegas hzToMuhz),
   ("corot_mode_omegas_d_cpd", daughterCol og rows omegas hzToCpd),
   ("linear_omega_diff", .vec (rows.map fun t => some (linearDiff t.toTriad))),
   ("linear_omega_diff_muHz", .vec (rows.map fun t => some (hzToMuhz (linearDiff t.toTriad)))),
   ("linear_omega_diff_cpd", .vec (rows.map fun t => some (hzToCpd (linearDiff t.toTriad)))),
   ("rotation_freqs", .vec (rows.map fun t => some (rotation t.toTriad))),
   ("rotation_freqs_muHz", .vec (rows.map fun t => some (hzToMuhz (rotation t.toTriad)))),
   ("rotation_freqs_cpd", .vec (rows.map fun t => some (hzToCpd (rotation t.toTriad))))]

/-- The additional frequencies (AN:290-370, PL:383-463). -/
def additionalColumns (og : Bool) (rows : List Row) : List (String × Col) :=
  let corotF (t : Row) := t.corotF
  let inert (t : Row) := t.inert
  let inertF (t : Row) := t.inertF
  [("corot_mode_freqs_p_muHz", parentCol rows corotF hzToMuhz),
   ("corot_mode_freqs_p_cpd", parentCol rows corotF hzToCpd),
   ("corot_mode_freqs_d_muHz", daughterCol og rows corotF hzToMuhz),
   ("corot_mode_freqs_d_cpd", daughterCol og rows corotF hzToCpd),
   ("inert_mode_omegas_p_muHz", parentCol rows inert hzToMuhz),
   ("inert_mode_omegas_p_cpd", parentCol rows inert hzToCpd),
   ("inert_mode_omegas_d_muHz", daughterCol og rows inert hzToMuhz),
   ("inert_mode_omegas_d_cpd", daughterCol og rows inert hzToCpd),
   ("inert_mode_freqs_p_muHz", parentCol rows inertF hzToMuhz),
   ("inert_mode_freqs_p_cpd", parentCol rows inertF hzToCpd),
   ("inert_mode_freqs_d_muHz", daughterCol og rows inertF hzToMuhz),
   ("inert_mode_freqs_d_cpd", daughterCol og rows inertF hzToCpd)]

/-- `_compute_frequency_data` (AN:235-370, PL:319-463). -/
def frequencyColumns (og additional : Bool) (rows : List Row) : List (String × Col) :=
  basicColumns og rows ++ if additional then additionalColumns og rows else []

/-- `gamma_sum_cpd` of the analyzer (AN:407-408, 416-417): the flat branch adds the unconverted daughter rates. -/
def gammaSumCpd (og : Bool) (t : Row) : ℝ :=
  if og then hzToCpd (t.rates 0) + (hzToCpd (t.rates 1) + hzToCpd (t.rates 2))
  else hzToCpd (t.rates 0) + (t.rates 1 + t.rates 2)

/-- `_compute_driv_damp_info` (AN:392-417; PL:485-503 lacks the last key). -/
def rateColumns (og : Bool) (rows : List Row) : List (String × Col) :=
  let rates (t : Row) := t.rates
  [("p_driv_rates", parentCol rows rates id), ("p_driv_rates_muHz", parentCol rows rates hzToMuhz),
   ("p_driv_rates_cpd", parentCol rows rates hzToCpd),
   ("d_damp_rates", daughterCol og rows rates id), ("d_damp_rates_muHz", daughterCol og rows rates hzToMuhz),
   ("d_damp_rates_cpd", daughterCol og rows rates hzToCpd),
   ("gamma_sum_cpd", .vec (rows.map fun t => some (gammaSumCpd og t)))]

/-- `_gamma_boxplus` (AN:503, PL:599). -/
def boxplus (t : Row) : ℝ := t.rates 0 + t.rates 1 + t.rates 2

/-- The daughter shifts in Hz (AN:494-526, PL:590-622): `np.tile(x, 2)` is `x` followed by `x`. -/
def shiftD (og : Bool) (rows : List Row) (conv : ℝ → ℝ) : Col :=
  if og then .two (rows.map fun t =>
    let r (j : Fin 3) := (nmul (some (linearDiff t.toTriad)) (ndiv (some (t.rates j)) (some (boxplus t)))).map conv
    (r 1, r 2))
  else
    let diffs := rows.map (fun t => linearDiff t.toTriad) ++ rows.map (fun t => linearDiff t.toTriad)
    let sums := rows.map boxplus ++ rows.map boxplus
    let rates := rows.flatMap fun t => [t.rates 1, t.rates 2]
    .vec ((diffs.zip (rates.zip sums)).map fun p => (nmul (some p.1) (ndiv (some p.2.1) (some p.2.2))).map conv)

/-- `_compute_freq_shifts` (AN:489-526, PL:585-622), the keys both have in common. -/
def shiftColumns (og : Bool) (rows : List Row) : List (String × Col) :=
  let p (conv : ℝ → ℝ) : Col := .vec (rows.map fun t =>
    (nmul (some (linearDiff t.toTriad)) (ndiv (some (-t.rates 0)) (some (boxplus t)))).map conv)
  [("freq_shift_p", p id), ("freq_shift_p_muHz", p hzToMuhz), ("freq_shift_p_cpd", p hzToCpd),
   ("freq_shift_d", shiftD og rows id), ("freq_shift_d_muHz", shiftD og rows hzToMuhz),
   ("freq_shift_d_cpd", shiftD og rows hzToCpd)]

/-- The dimensionless estimators of a row (AN:556-574). -/
structure Estimators where
  gammaSum : Num
  q : Num
  q1 : Num
  q3 : Num
  theta2 : Num
  theta3 : Num
  theta23 : Num

/-- `_compute_dimensionless_validity_estimators` (AN:556-574) in the original layout. -/
def estimators (t : Triad) : Estimators :=
  let parent := hzToCpd (t.rates 0)
  let d1 := hzToCpd (t.rates 1)
  let d2 := hzToCpd (t.rates 2)
  let sums := parent + (d1 + d2)
  let diff := hzToCpd (linearDiff t)
  { gammaSum := some sums, q := ndiv (some diff) (some sums), q1 := ndiv (some diff) (some parent), q3 := ndiv (some diff) (some d2),
    theta2 := ndiv (some (-d1)) (some parent), theta3 := ndiv (some (-d2)) (some parent), theta23 := ndiv (some d1) (some d2) }

/-- `surf_ratio_daughter_parent` (AN:474-476, PL:560-562). -/
def flatRatios (rows : List Triad) : List Num := rows.map (fun t => (ampRatios t).1) ++ rows.map fun t => (ampRatios t).2.1

/-! ### Specification -/

/-- Names of the units and how many of them are one Hz. -/
def Spec.units : List (String × ℝ) := [("muHz", 1000000), ("cpd", 24 * 3600)]

/-- The quantities with columns for parent and daughters. -/
def Spec.perMode : List (String × String × Bool × (Row → Fin 3 → ℝ)) :=
  [("corot_mode_omegas_p_", "corot_mode_omegas_d_", false, fun t => t.corot),
   ("corot_mode_freqs_p_", "corot_mode_freqs_d_", true, fun t => t.corotF),
   ("inert_mode_omegas_p_", "inert_mode_omegas_d_", true, fun t => t.inert),
   ("inert_mode_freqs_p_", "inert_mode_freqs_d_", true, fun t => t.inertF)]

/-- A column of numbers, one for each row, in order. -/
def Spec.IsCol (rows : List Row) (v : Row → Num) (c : Option Col) : Prop := c = some (.vec (rows.map v))

/-- The columns of the daughters: two numbers for each row, or the same numbers one after the other. -/
def Spec.IsPair (og : Bool) (rows : List Row) (v : Row → Fin 2 → Num) (c : Option Col) : Prop :=
  if og then c = some (.two (rows.map fun t => (v t 0, v t 1)))
  else ∃ l, c = some (.vec l) ∧ l.length = 2 * rows.length ∧
    ∀ (i : ℕ) (t : Row) (j : Fin 2), rows[i]? = some t → l[2 * i + j]? = some (v t j)

/-! ### Proofs -/

theorem flat_pairs (rows : List Row) (v : Row → Fin 2 → Num) :
    (rows.flatMap fun t => [v t 0, v t 1]).length = 2 * rows.length ∧
      ∀ (i : ℕ) (t : Row) (j : Fin 2), rows[i]? = some t → (rows.flatMap fun t => [v t 0, v t 1])[2 * i + j]? = some (v t j) := by
  induction rows with
  | nil => simp
  | cons r rows ih =>
    refine ⟨by rw [List.flatMap_cons, List.length_append, ih.1]; simp; omega, fun i t j h => ?_⟩
    rw [List.flatMap_cons]
    cases i with
    | zero =>
      simp only [List.getElem?_cons_zero, Option.some.injEq] at h
      subst h
      fin_cases j <;> rfl
    | succ i =>
      rw [List.getElem?_cons_succ] at h
      rw [List.getElem?_append_right (by simp; omega)]
      have := ih.2 i t j h
      convert this using 2
      simp
      omega

theorem isPair_daughterCol (og : Bool) (rows : List Row) (f : Row → Fin 3 → ℝ) (conv : ℝ → ℝ) (v : Row → Fin 2 → Num)
    (h : ∀ t j, v t j = some (conv (f t j.succ))) : Spec.IsPair og rows v (some (daughterCol og rows f conv)) := by
  have hv : v = fun t j => some (conv (f t j.succ)) := by funext t j; exact h t j
  subst hv
  unfold Spec.IsPair daughterCol
  cases og
  · exact ⟨_, rfl, flat_pairs rows fun t j => some (conv (f t j.succ))⟩
  · rfl

/-- **C163.** The columns of the modes in other units: for each of the four saved frequency quantities of parent and daughters the
named column holds that quantity in that unit, row by row; those of the last three are there only on request. -/
theorem C163_mode_units (og additional : Bool) (rows : List Row) :
    ∀ u ∈ Spec.units, ∀ q ∈ Spec.perMode,
      if q.2.2.1 && !additional then (frequencyColumns og additional rows).lookup (q.1 ++ u.1) = none ∧
        (frequencyColumns og additional rows).lookup (q.2.1 ++ u.1) = none
      else Spec.IsCol rows (fun t => some (u.2 * q.2.2.2 t 0)) ((frequencyColumns og additional rows).lookup (q.1 ++ u.1)) ∧
        Spec.IsPair og rows (fun t j => some (u.2 * q.2.2.2 t j.succ))
          ((frequencyColumns og additional rows).lookup (q.2.1 ++ u.1)) := by
  have hm : ∀ x, hzToMuhz x = 1000000 * x := fun x => mul_comm _ _
  have hc : ∀ x, hzToCpd x = 24 * 3600 * x := fun x => by unfold hzToCpd; ring
  intro u hu q hq
  simp only [Spec.units, List.mem_cons, List.not_mem_nil, or_false] at hu
  simp only [Spec.perMode, List.mem_cons, List.not_mem_nil, or_false] at hq
  rcases hu with rfl | rfl <;> rcases hq with rfl | rfl | rfl | rfl <;> cases additional <;>
    simp only [Bool.not_true, Bool.not_false, Bool.and_true, Bool.and_false, Bool.true_and, Bool.false_and, if_true, if_false,
      reduceIte, Bool.false_eq_true]
  all_goals
    first
    | constructor <;> (simp [frequencyColumns, basicColumns, List.lookup]; done)
    | refine ⟨by simp [frequencyColumns, basicColumns, additionalColumns, List.lookup, Spec.IsCol, parentCol, hm, hc], ?_⟩
      simp only [frequencyColumns, basicColumns, additionalColumns, reduceIte, Bool.false_eq_true, List.append_nil, List.cons_append,
        List.nil_append, List.lookup, String.reduceAppend, String.reduceBEq]
      exact isPair_daughterCol _ _ _ _ _ (fun t j => by simp [hm, hc])

/-- The units of columns that also exist in Hz, with the separating underscore. -/
def Spec.unitsOrHz : List (String × ℝ) := [("", 1), ("_muHz", 1000000), ("_cpd", 24 * 3600)]

/-- The frequency shift of a mode: the share of the detuning that its rate (`sign` -1 for the parent) has in the sum of rates. -/
def Spec.shiftOf (t : Row) (sign : ℝ) (i : Fin 3) (factor : ℝ) : Num :=
  if t.rates 0 + t.rates 1 + t.rates 2 = 0 then none
  else some (factor * (sign * (t.corot 0 - t.corot 1 - t.corot 2) * t.rates i / (t.rates 0 + t.rates 1 + t.rates 2)))

/-- **C163.** Detuning, rotation frequency, driving rate and shift of the parent, in Hz, µHz and cycles per day. -/
theorem C163_single_units (og additional : Bool) (rows : List Row) : ∀ u ∈ Spec.unitsOrHz,
    Spec.IsCol rows (fun t => some (u.2 * (t.corot 0 - t.corot 1 - t.corot 2)))
      ((frequencyColumns og additional rows).lookup ("linear_omega_diff" ++ u.1)) ∧
    Spec.IsCol rows (fun t => some (u.2 * (t.inert 1 - t.corot 1)))
      ((frequencyColumns og additional rows).lookup ("rotation_freqs" ++ u.1)) ∧
    Spec.IsCol rows (fun t => some (u.2 * t.rates 0)) ((rateColumns og rows).lookup ("p_driv_rates" ++ u.1)) ∧
    Spec.IsPair og rows (fun t j => some (u.2 * t.rates j.succ)) ((rateColumns og rows).lookup ("d_damp_rates" ++ u.1)) ∧
    Spec.IsCol rows (fun t => Spec.shiftOf t (-1) 0 u.2) ((shiftColumns og rows).lookup ("freq_shift_p" ++ u.1)) := by
  have hm : ∀ x, hzToMuhz x = 1000000 * x := fun x => mul_comm _ _
  have hc : ∀ x, hzToCpd x = 24 * 3600 * x := fun x => by unfold hzToCpd; ring
  intro u hu
  simp only [Spec.unitsOrHz, List.mem_cons, List.not_mem_nil, or_false] at hu
  have hs : ∀ (t : Row) (conv : ℝ → ℝ) (f : ℝ), (∀ x, conv x = f * x) →
      (nmul (some (linearDiff t.toTriad)) (ndiv (some (-t.rates 0)) (some (boxplus t)))).map conv = Spec.shiftOf t (-1) 0 f := by
    intro t conv f hf
    unfold Spec.shiftOf nmul ndiv boxplus linearDiff
    by_cases h : t.rates 0 + t.rates 1 + t.rates 2 = 0
    · simp [h]
    · simp only [Option.bind_some, h, if_false, Option.map_some, hf]
      congr 2
      ring
  rcases hu with rfl | rfl | rfl
  · refine ⟨?_, ?_, ?_, ?_, ?_⟩
    · simp [frequencyColumns, basicColumns, List.lookup, Spec.IsCol, linearDiff]
    · simp [frequencyColumns, basicColumns, List.lookup, Spec.IsCol, rotation]
    · simp [rateColumns, List.lookup, Spec.IsCol, parentCol]
    · simp only [rateColumns, List.lookup, String.reduceAppend, String.reduceBEq]
      exact isPair_daughterCol _ _ _ _ _ (fun t j => by simp)
    · simp only [shiftColumns, List.lookup, String.reduceAppend, String.reduceBEq, Spec.IsCol]
      simp only [fun t => hs t id 1 (fun x => by simp)]
  · refine ⟨?_, ?_, ?_, ?_, ?_⟩
    · simp [frequencyColumns, basicColumns, List.lookup, Spec.IsCol, linearDiff, hm]
    · simp [frequencyColumns, basicColumns, List.lookup, Spec.IsCol, rotation, hm]
    · simp [rateColumns, List.lookup, Spec.IsCol, parentCol, hm]
    · simp only [rateColumns, List.lookup, String.reduceAppend, String.reduceBEq]
      exact isPair_daughterCol _ _ _ _ _ (fun t j => by simp [hm])
    · simp only [shiftColumns, List.lookup, String.reduceAppend, String.reduceBEq, Spec.IsCol]
      simp only [fun t => hs t hzToMuhz 1000000 hm]
  · refine ⟨?_, ?_, ?_, ?_, ?_⟩
    · simp [frequencyColumns, basicColumns, List.lookup, Spec.IsCol, linearDiff, hc]
    · simp [frequencyColumns, basicColumns, List.lookup, Spec.IsCol, rotation, hc]
    · simp [rateColumns, List.lookup, Spec.IsCol, parentCol, hc]
    · simp only [rateColumns, List.lookup, String.reduceAppend, String.reduceBEq]
      exact isPair_daughterCol _ _ _ _ _ (fun t j => by simp [hc])
    · simp only [shiftColumns, List.lookup, String.reduceAppend, String.reduceBEq, Spec.IsCol]
      simp only [fun t => hs t hzToCpd (24 * 3600) hc]

theorem shift_entry (t s : Row) (j : Fin 3) (conv : ℝ → ℝ) (f : ℝ) (hf : ∀ x, conv x = f * x) (hd : linearDiff s.toTriad = linearDiff t.toTriad)
    (hb : boxplus s = boxplus t) :
    (nmul (some (linearDiff s.toTriad)) (ndiv (some (t.rates j)) (some (boxplus s)))).map conv = Spec.shiftOf t 1 j f := by
  rw [hd, hb]
  unfold Spec.shiftOf nmul ndiv boxplus linearDiff
  by_cases h : t.rates 0 + t.rates 1 + t.rates 2 = 0
  · simp [h]
  · simp only [Option.bind_some, h, if_false, Option.map_some, hf]
    congr 2
    ring

/-- **C163.** The shifts of the daughters and the sum of the rates in the layout with two columns, which is the one the programs
use. -/
theorem C163_shifts (rows : List Row) :
    (∀ u ∈ Spec.unitsOrHz, Spec.IsPair true rows (fun t j => Spec.shiftOf t 1 j.succ u.2)
      ((shiftColumns true rows).lookup ("freq_shift_d" ++ u.1))) ∧
    Spec.IsCol rows (fun t => some (24 * 3600 * (t.rates 0 + t.rates 1 + t.rates 2))) ((rateColumns true rows).lookup "gamma_sum_cpd") := by
  constructor
  · intro u hu
    simp only [Spec.unitsOrHz, List.mem_cons, List.not_mem_nil, or_false] at hu
    unfold Spec.IsPair
    rcases hu with rfl | rfl | rfl <;>
      simp only [shiftColumns, List.lookup, String.reduceAppend, String.reduceBEq, shiftD, if_true]
    · simp only [fun (t : Row) j => shift_entry t t j id 1 (fun x => by simp) rfl rfl]; rfl
    · simp only [fun (t : Row) j => shift_entry t t j hzToMuhz 1000000 (fun x => mul_comm _ _) rfl rfl]; rfl
    · simp only [fun (t : Row) j => shift_entry t t j hzToCpd (24 * 3600) (fun x => by unfold hzToCpd; ring) rfl rfl]; rfl
  · simp only [rateColumns, List.lookup, String.reduceBEq, Spec.IsCol, gammaSumCpd, if_true, hzToCpd]
    congr 2
    refine List.map_congr_left fun t _ => ?_
    congr 1
    ring

/-- **C163 (partial).** In the flat layout the shifts are right for a single triad. -/
theorem C163_flat_shift_partial (t : Row) : ∀ u ∈ Spec.unitsOrHz, Spec.IsPair false [t] (fun t j => Spec.shiftOf t 1 j.succ u.2)
      ((shiftColumns false [t]).lookup ("freq_shift_d" ++ u.1)) := by
  intro u hu
  simp only [Spec.unitsOrHz, List.mem_cons, List.not_mem_nil, or_false] at hu
  unfold Spec.IsPair
  have key : ∀ (conv : ℝ → ℝ) (f : ℝ), (∀ x, conv x = f * x) → ∃ l, some (shiftD false [t] conv) = some (Col.vec l) ∧
      l.length = 2 * [t].length ∧ ∀ (i : ℕ) (t' : Row) (j : Fin 2), [t][i]? = some t' → l[2 * i + j]? = some (Spec.shiftOf t' 1 j.succ f) := by
    intro conv f hf
    refine ⟨_, rfl, rfl, fun i t' j hi => ?_⟩
    cases i with
    | succ i => simp at hi
    | zero =>
      simp only [List.getElem?_cons_zero, Option.some.injEq] at hi
      subst hi
      fin_cases j
      · exact congrArg some (shift_entry t t 1 conv f hf rfl rfl)
      · exact congrArg some (shift_entry t t 2 conv f hf rfl rfl)
  rcases hu with rfl | rfl | rfl <;>
    simp only [shiftColumns, List.lookup, String.reduceAppend, String.reduceBEq, Bool.false_eq_true, if_false]
  · exact key id 1 (fun x => by simp)
  · exact key hzToMuhz 1000000 (fun x => mul_comm _ _)
  · exact key hzToCpd (24 * 3600) (fun x => by unfold hzToCpd; ring)

/-- **C163 is false in the flat layout.** With two triads the shift listed for the second daughter of the first triad is computed
from detuning and sum of rates of the second triad; and the summed rates add cycles per day and Hz. -/
theorem C163_flat_wrong :
    (∀ a b : Row, boxplus a ≠ 0 → boxplus b ≠ 0 → a.rates 2 ≠ 0 → linearDiff a.toTriad / boxplus a ≠ linearDiff b.toTriad / boxplus b →
      ¬ Spec.IsPair false [a, b] (fun t j => Spec.shiftOf t 1 j.succ 1) ((shiftColumns false [a, b]).lookup "freq_shift_d")) ∧
    ∀ t : Row, t.rates 1 + t.rates 2 ≠ 0 →
      ¬ Spec.IsCol [t] (fun t => some (24 * 3600 * (t.rates 0 + t.rates 1 + t.rates 2))) ((rateColumns false [t]).lookup "gamma_sum_cpd") := by
  constructor
  · intro a b ha hb h2 hne h
    unfold Spec.IsPair at h
    simp only [Bool.false_eq_true, if_false] at h
    obtain ⟨l, hl, -, hg⟩ := h
    simp only [shiftColumns, List.lookup, String.reduceBEq, shiftD, Bool.false_eq_true, if_false, Option.some.injEq, Col.vec.injEq] at hl
    have h1 := hg 0 a 1 rfl
    rw [← hl] at h1
    simp only [List.map_cons, List.map_nil, List.flatMap_cons, List.flatMap_nil, List.cons_append, List.nil_append, List.zip_cons_cons,
      List.getElem?_cons_succ, List.getElem?_cons_zero, Fin.val_one, Nat.mul_zero, Nat.zero_add, Option.some.injEq, Spec.shiftOf] at h1
    rw [if_neg (show ¬ (a.rates 0 + a.rates 1 + a.rates 2 = 0) from ha)] at h1
    simp only [nmul, ndiv, hb, Option.bind_some, if_false, Option.map_some, id, Option.some.injEq, one_mul] at h1
    apply hne
    have h3 : linearDiff b.toTriad * (a.rates 2 / boxplus b) = linearDiff a.toTriad * a.rates 2 / boxplus a := h1
    field_simp at h3 ⊢
    linear_combination -h3
  · intro t ht h
    simp only [rateColumns, List.lookup, String.reduceBEq, Spec.IsCol, gammaSumCpd, Bool.false_eq_true, if_false, hzToCpd, List.map_cons,
      List.map_nil, Option.some.injEq, Col.vec.injEq, List.cons.injEq, and_true] at h
    apply ht
    linarith

/-- **C163.** The dimensionless estimators of a parametric triad (driven parent, damped daughters): ratios of detuning and rates in
the saved unit.  The two ratios of rates are positive, and the quality ratio with the summed rates is that of the parent over one minus
both. -/
theorem C163_estimators (t : Triad) (h0 : 0 < t.rates 0) (h1 : t.rates 1 < 0) (h2 : t.rates 2 < 0) :
    let d := t.corot 0 - t.corot 1 - t.corot 2
    let e := estimators t
    ∃ θ2 θ3 q1, 0 < θ2 ∧ 0 < θ3 ∧ t.rates 1 = -θ2 * t.rates 0 ∧ t.rates 2 = -θ3 * t.rates 0 ∧ d = q1 * t.rates 0 ∧
      e.theta2 = some θ2 ∧ e.theta3 = some θ3 ∧ e.theta23 = some (θ2 / θ3) ∧ e.q1 = some q1 ∧ e.q3 = some (-q1 / θ3) ∧
      e.gammaSum = some (24 * 3600 * (t.rates 0 + t.rates 1 + t.rates 2)) ∧
      (e.q = none ↔ θ2 + θ3 = 1) ∧ (θ2 + θ3 ≠ 1 → e.q = some (q1 / (1 - θ2 - θ3))) := by
  intro d e
  refine ⟨-t.rates 1 / t.rates 0, -t.rates 2 / t.rates 0, d / t.rates 0, div_pos (by linarith) h0, div_pos (by linarith) h0,
    by field_simp, by field_simp, by field_simp, ?_⟩
  have hd : linearDiff t = d := rfl
  have n1 : t.rates 1 * 86400 ≠ 0 := by intro h; linarith
  have n2 : t.rates 2 * 86400 ≠ 0 := by intro h; linarith
  have n0 : t.rates 0 * 86400 ≠ 0 := by intro h; linarith
  have m0 := h0.ne'
  have m1 := h1.ne
  have m2 := h2.ne
  have hsum : -t.rates 1 / t.rates 0 + -t.rates 2 / t.rates 0 = 1 ↔ t.rates 0 * 86400 + (t.rates 1 * 86400 + t.rates 2 * 86400) = 0 := by
    field_simp
    constructor <;> intro h <;> linarith
  refine ⟨?_, ?_, ?_, ?_, ?_, ?_, ?_, ?_⟩
  · simp only [e, estimators, ndiv, hzToCpd, Option.bind_some, n0, if_false]; congr 1; field_simp
  · simp only [e, estimators, ndiv, hzToCpd, Option.bind_some, n0, if_false]; congr 1; field_simp
  · simp only [e, estimators, ndiv, hzToCpd, Option.bind_some, n2, if_false]; congr 1; field_simp
  · simp only [e, estimators, ndiv, hzToCpd, Option.bind_some, n0, if_false, hd]; congr 1; field_simp
  · simp only [e, estimators, ndiv, hzToCpd, Option.bind_some, n2, if_false, hd]; congr 1; field_simp
  · simp only [e, estimators, hzToCpd]; congr 1; ring
  · rw [hsum]
    simp only [e, estimators, ndiv, hzToCpd, Option.bind_some]
    split <;> simp_all
  · intro h
    rw [Ne, hsum] at h
    simp only [e, estimators, ndiv, hzToCpd, Option.bind_some, h, if_false, hd]
    congr 1
    have h' : t.rates 0 + t.rates 1 + t.rates 2 ≠ 0 := fun h' => h (by linarith)
    have h'' : t.rates 0 * 86400 + (t.rates 1 * 86400 + t.rates 2 * 86400) = (t.rates 0 + t.rates 1 + t.rates 2) * 86400 := by ring
    have h3 : 1 - -t.rates 1 / t.rates 0 - -t.rates 2 / t.rates 0 = (t.rates 0 + t.rates 1 + t.rates 2) / t.rates 0 := by field_simp; ring
    rw [h'', h3]
    field_simp

/-- **C163.** The flat luminosity ratios list the first daughters of all triads, then the second ones (unlike the other flat columns). -/
theorem C163_flat_ratios (rows : List Triad) (i : ℕ) (t : Triad) (h : rows[i]? = some t) :
    (flatRatios rows)[i]? = some (ampRatios t).1 ∧ (flatRatios rows)[rows.length + i]? = some (ampRatios t).2.1 ∧
      (flatRatios rows).length = 2 * rows.length := by
  have hi : i < rows.length := (List.getElem?_eq_some_iff.1 h).1
  refine ⟨?_, ?_, by simp [flatRatios]; omega⟩
  · rw [flatRatios, List.getElem?_append_left (by simpa using hi), List.getElem?_map, h]; rfl
  · rw [flatRatios, List.getElem?_append_right (by simp)]
    simp [h]

theorem third (a b c : ℝ) : (![a, b, c] : Fin 3 → ℝ) 2 = c := rfl

/-- A row for the examples. -/
def sampleRow (rates corot : Fin 3 → ℝ) : Row :=
  { surfs := fun _ => none, checks := fun _ => true, rates := rates, amps := fun _ => none, thresh := none, radOrd := ![-30, -50, -51],
    corot := corot, inert := corot, inertF := corot, kappaNorm := none, phase := none, corotF := corot }

/-- Two triads for which the flat layout is wrong. -/
example : ¬ Spec.IsPair false [sampleRow ![1, -2, -3] ![5, 2, 1], sampleRow ![1, -2, -3] ![6, 2, 1]] (fun t j => Spec.shiftOf t 1 j.succ 1)
    ((shiftColumns false [sampleRow ![1, -2, -3] ![5, 2, 1], sampleRow ![1, -2, -3] ![6, 2, 1]]).lookup "freq_shift_d") := by
  apply C163_flat_wrong.1 <;> norm_num [boxplus, linearDiff, sampleRow, third]

example : 0 < (sampleRow ![1, -2, -3] ![5, 2, 1]).rates 0 ∧ (sampleRow ![1, -2, -3] ![5, 2, 1]).rates 1 < 0 ∧
    (sampleRow ![1, -2, -3] ![5, 2, 1]).rates 2 < 0 := by
  norm_num [sampleRow, third]

end
end Verif.Post
