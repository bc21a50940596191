import Verif.Stab.Model
/-!
# Model of the selection-rule pre-checks

`none` in an `Option` result means that the Python code raises (an `IndexError`, or a `TypeError` when
a `bool` is used where a tuple of flags is needed).
-/
namespace Verif.PreCheck

/-- Python's `l[i]` on a list, with wrap-around of negative indices. -/
def pyGet {α : Type} (l : List α) (i : Int) : Option α :=
  if 0 ≤ i then l[i.toNat]? else if -(l.length : Int) ≤ i then l[(i + l.length).toNat]? else none

/-- The entries `'l'` and `'m'` of one element of `gyre_ad`.  Simplification: both keys are present. -/
structure Mode where
  l : Int
  m : Int

/-- One element of the `conjugation` argument: a tuple of flags, or a bare `bool`. -/
inductive Conj where
  | flags (c : List Bool)
  | bare (b : Bool)

/-- The attributes set by `PreCheckQuadratic.__init__`. -/
structure Obj where
  triads : List (List Int)
  conj : List Conj
  mList : List (List Int)
  lList : List (List Int)
  kList : List (List Int)

/-- Default of `triads`, generic_quadratic_checks.py:58-59. -/
def defTriads : Option (List (List Int)) → List (List Int)
  | none => [[1, 2, 3]]
  | some t => t

/-- Default of `conjugation`, generic_quadratic_checks.py:60-61 (`conjugation[0]` raises on `[]`). -/
def defConj : Option (List Conj) → Option (List Conj)
  | none => some [.flags [true, false, false]]
  | some [] => none
  | some (.bare _ :: _) => some [.flags [true, false, false]]
  | some c => some c

/-- `_mode_attr_list_extractor`, generic_quadratic_checks.py:125-151. -/
def attrList (gyre : List Mode) (attr : Mode → Int) (t : List Int) : Option (List Int) :=
  t.mapM (fun g => (pyGet gyre (g - 1)).map attr)

/-- `_compute_k_grav_in`, generic_quadratic_checks.py:226-242. -/
def kGrav (l m : Int) : Int := l - |m|

/-- `_compute_meridional_orders`, generic_quadratic_checks.py:154-178: the mode *numbers* of the triad
are used as positions in the triad's own lists. -/
def merOrders (ls ms : List Int) (t : List Int) : Option (List Int) :=
  t.mapM (fun nr => do
    let l ← pyGet ls (nr - 1)
    let m ← pyGet ms (nr - 1)
    pure (kGrav l m))

/-- `PreCheckQuadratic.__init__`, generic_quadratic_checks.py:50-73, with `_store_relevant_info` (109-122). -/
def mkObj (gyre : List Mode) (triads : Option (List (List Int))) (conj : Option (List Conj)) :
    Option Obj := do
  let ts := defTriads triads
  let cs ← defConj conj
  let ll ← ts.mapM (attrList gyre Mode.l)
  let ml ← ts.mapM (attrList gyre Mode.m)
  let kl ← (ts.zip (ll.zip ml)).mapM (fun x => merOrders x.2.1 x.2.2 x.1)
  pure ⟨ts, cs, ml, ll, kl⟩

/-- `_conjer_m`, generic_quadratic_checks.py:181-197. -/
def conjerM (c : Bool) (m : Int) : Int := if c then -m else m

/-- `_azimuthal_selection_rule`, generic_quadratic_checks.py:246-268 with `_adapt_complex_conj_m`
(200-223); `map` over two sequences stops at the shorter one. -/
def azimuthal (o : Obj) (i : Nat) : Option Bool := do
  let ms ← o.mList[i]?
  match ← o.conj[i]? with
  | .bare _ => none
  | .flags c => pure ((List.zipWith conjerM c ms).sum == 0)

/-- `_meridional_selection_rule`, generic_quadratic_checks.py:271-285. -/
def meridional (o : Obj) (i : Nat) : Option Bool := do
  let ks ← o.kList[i]?
  pure (ks.sum % 2 == 0)

/-- The list built by `generic_check`, generic_quadratic_checks.py:297-301. -/
def checkList (o : Obj) : Option (List Bool) :=
  (List.range o.triads.length).mapM (fun i => do
    if ← azimuthal o i then meridional o i else pure false)

/-- `generic_check`, generic_quadratic_checks.py:288-308: a `bool`, or the list. -/
def genericCheck (o : Obj) (all_fulfilled : Bool) : Option (Bool ⊕ List Bool) := do
  let l ← checkList o
  pure (if all_fulfilled then .inl (l.all id) else .inr l)

/-- `PreCheckThreeModesQuadratic(...).check()`, three_mode_checks.py:127-157 and 241-258; the driving
rates and the detuning parameter come from the frequency handler. -/
noncomputable def threeCheck (gyre : List Mode) (γ : Fin 3 → ℝ) (q : ℝ)
    (triads : Option (List (List Int))) (conj : Option (List Conj)) (harmonic : Bool) :
    Option Bool := do
  let o ← mkObj gyre triads conj
  match ← genericCheck o true with
  | .inl b => pure (b && Stab.checkLinearlyStableFp harmonic γ q)
  | .inr _ => none

end Verif.PreCheck
