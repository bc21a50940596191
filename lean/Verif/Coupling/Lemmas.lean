import Verif.Coupling.Model
import Verif.AngInt.Props
import Mathlib.GroupTheory.Perm.Fin
import Mathlib.Algebra.BigOperators.Group.Finset.Basic
import Mathlib.Data.Fintype.Perm
import Mathlib.Data.Fin.VecNotation
import Mathlib.Tactic.FinCases
/-! Helper lemmas for the coupling coefficient. -/
namespace Verif.Coupling
open Finset Equiv
noncomputable section

/-- The `k`-th name of a term. -/
def Term.get (t : Term) : Fin 3 → String := ![t.1, t.2.1, t.2.2]
/-- The term built from three names. -/
def ofGet (f : Fin 3 → String) : Term := (f 0, f 1, f 2)

@[simp] theorem get_ofGet (f : Fin 3 → String) : Term.get (ofGet f) = f := by
  funext k; fin_cases k <;> rfl
@[simp] theorem ofGet_get (t : Term) : ofGet t.get = t := rfl

/-- Names of a term permuted among the modes. -/
def act (t : Term) (π : Perm (Fin 3)) : Term := ofGet (t.get ∘ π)

theorem act_act (t : Term) (π τ : Perm (Fin 3)) : act (act t π) τ = act t (π * τ) := by
  simp [act, Function.comp_assoc]

/-- The permutations in the order of itertools. -/
def six : List (Perm (Fin 3)) :=
  [1, swap 1 2, swap 0 1, swap 0 1 * swap 1 2, swap 1 2 * swap 0 1, swap 0 2]

theorem six_nodup : six.Nodup := by decide
theorem mem_six (π : Perm (Fin 3)) : π ∈ six := by revert π; decide

theorem permutations_eq (t : Term) : permutations t = six.map (act t) := by
  obtain ⟨a, b, c⟩ := t
  rfl

theorem sum_six (F : Perm (Fin 3) → ℝ) : (six.map F).sum = ∑ π, F π := by
  have h : (univ : Finset (Perm (Fin 3))) = six.toFinset := by
    ext π; simp [mem_six]
  rw [h, List.sum_toFinset _ six_nodup]

theorem mapM_ite {α β : Type} (l : List α) (F : α → Option β) (d : β) :
    l.mapM F = if ∀ x ∈ l, (F x).isSome then some (l.map fun x => (F x).getD d) else none := by
  classical
  induction l with
  | nil => simp
  | cons a l ih =>
    rw [List.mapM_cons, ih]
    cases h : F a with
    | none => simp [h]
    | some v =>
      by_cases h' : ∀ x ∈ l, (F x).isSome
      · rw [if_pos h', if_pos (by simpa [h] using h')]; simp [h]
      · rw [if_neg h', if_neg (by intro hh; exact h' fun x hx => hh x (List.mem_cons_of_mem _ hx))]; simp

/-- Grouping equal permutations computes the same column as evaluating all six. -/
theorem fill_eq (g : List ℝ) (hg : g.length = 6) (t : Term) (f : Term → Option ℝ) :
    fill g (symmetryMapping t) f = (permutations t).mapM f := by
  obtain ⟨a, b, c⟩ := t
  match g, hg with
  | [g0, g1, g2, g3, g4, g5], _ =>
    by_cases hab : a = b
    · subst hab
      by_cases hac : a = c
      · subst hac
        simp [fill, symmetryMapping, permutations, insertAppend]
        cases f (a, a, a) <;> simp
      · have hca : c ≠ a := fun h => hac h.symm
        simp [fill, symmetryMapping, permutations, insertAppend, hac, hca]
        cases f (a, a, c) <;> cases f (a, c, a) <;> cases f (c, a, a) <;> simp
    · have hba : b ≠ a := fun h => hab h.symm
      by_cases hac : a = c
      · subst hac
        simp [fill, symmetryMapping, permutations, insertAppend, hab, hba]
        cases f (a, a, b) <;> cases f (a, b, a) <;> cases f (b, a, a) <;> simp
      · have hca : c ≠ a := fun h => hac h.symm
        by_cases hbc : b = c
        · subst hbc
          simp [fill, symmetryMapping, permutations, insertAppend, hab, hba]
          cases f (a, b, b) <;> cases f (b, a, b) <;> cases f (b, b, a) <;> simp
        · have hcb : c ≠ b := fun h => hbc h.symm
          simp [fill, symmetryMapping, permutations, insertAppend, hab, hba, hac, hca, hbc, hcb]
          cases f (a, b, c) <;> simp
          cases f (a, c, b) <;> simp
          cases f (b, a, c) <;> simp
          cases f (b, c, a) <;> simp
          cases f (c, a, b) <;> simp
          cases f (c, b, a) <;> simp

/-- A column exists when all six integrals do. -/
def colOk (f : Term → Option ℝ) (t : Term) : Prop := ∀ π, (f (act t π)).isSome
/-- Its six values. -/
def colVal (f : Term → Option ℝ) (t : Term) (π : Perm (Fin 3)) : ℝ := (f (act t π)).getD 0

open Classical in
theorem column_eq (g : List ℝ) (hg : g.length = 6) (t : Term) (f : Term → Option ℝ) :
    fill g (symmetryMapping t) f = if colOk f t then some (six.map (colVal f t)) else none := by
  rw [fill_eq g hg, permutations_eq, mapM_ite _ _ 0, List.map_map]
  congr 1
  · simp only [List.forall_mem_map, colOk, eq_iff_iff]
    exact ⟨fun h π => h π (mem_six π), fun h π _ => h π⟩

theorem dot_six (u v : Perm (Fin 3) → ℝ) : dot (six.map u) (six.map v) = ∑ π, u π * v π := by
  rw [dot, List.zipWith_map, List.zipWith_self, sum_six]

/-- The product of three optional profiles. -/
def combine (p q r : Option (List ℝ)) : Option (List ℝ) :=
  match p, q, r with
  | some p, some q, some r => if q.length = p.length ∧ r.length = p.length then some (mul (mul p q) r) else none
  | _, _, _ => none

theorem mul_comm' (p q : List ℝ) : mul p q = mul q p := by
  unfold mul; rw [List.zipWith_comm]; congr 1; funext a b; ring
theorem mul_assoc' (p q r : List ℝ) : mul (mul p q) r = mul p (mul q r) := by
  induction p generalizing q r with
  | nil => simp [mul]
  | cons a p ih => cases q <;> cases r <;> simp [mul] at ih ⊢; exact ⟨by ring, ih _ _⟩

theorem combine_12 (p q r : Option (List ℝ)) : combine p q r = combine q p r := by
  rcases p with _ | p <;> rcases q with _ | q <;> rcases r with _ | r <;> simp only [combine]
  rw [mul_comm' p q]
  congr 1
  simp only [eq_iff_iff]; omega
theorem combine_23 (p q r : Option (List ℝ)) : combine p q r = combine p r q := by
  rcases p with _ | p <;> rcases q with _ | q <;> rcases r with _ | r <;> simp only [combine]
  rw [mul_assoc', mul_comm' q r, ← mul_assoc']
  congr 1
  simp only [eq_iff_iff]; omega

theorem combine_perm (P : Fin 3 → Option (List ℝ)) (σ : Perm (Fin 3)) :
    combine (P (σ 0)) (P (σ 1)) (P (σ 2)) = combine (P 0) (P 1) (P 2) := by
  have key : ∀ i j k : Fin 3, i ≠ j → j ≠ k → i ≠ k → combine (P i) (P j) (P k) = combine (P 0) (P 1) (P 2) := by
    intro i j k
    fin_cases i <;> fin_cases j <;> fin_cases k <;> intro h1 h2 h3 <;> first | (exfalso; revert h1 h2 h3; decide) | skip
    · rfl
    · exact combine_23 _ _ _
    · exact combine_12 _ _ _
    · simp only; rw [combine_23, combine_12]; rfl
    · simp only; rw [combine_12, combine_23]; rfl
    · simp only; rw [combine_12, combine_23, combine_12]; rfl
  exact key _ _ _ (by simp) (by simp) (by simp)

/-- The radial integral from the product of the three profiles. -/
def radOf (o : Obj) (mult : List ℝ) (idx : Option ℕ) (p : List ℝ) : Option ℝ :=
  if mult.length = p.length ∧ o.x.length = p.length then
    radint o (mul (mul p mult) (o.x.map fun v => v ^ 2)) o.x idx
  else none

theorem radInt_combine (o : Obj) (t : Term) (mult : List ℝ) (idx : Option ℕ) :
    radInt o t mult idx =
      (combine (o.attr (name (t.get 0) 1)) (o.attr (name (t.get 1) 2)) (o.attr (name (t.get 2) 3))).bind
        (radOf o mult idx) := by
  unfold radInt
  simp only [Term.get, Matrix.cons_val_zero, Matrix.cons_val_one, Matrix.cons_val]
  cases h1 : o.attr (name t.1 1) with
  | none => simp [combine]
  | some p =>
    cases h2 : o.attr (name t.2.1 2) with
    | none => simp [combine]
    | some q =>
      cases h3 : o.attr (name t.2.2 3) with
      | none => simp [combine]
      | some r =>
        simp only [combine, Option.bind_eq_bind, Option.bind_some]
        by_cases hl : q.length = p.length ∧ r.length = p.length
        · obtain ⟨hq, hr⟩ := hl
          have : (mul (mul p q) r).length = p.length := by simp [mul, hq, hr]
          simp only [hq, hr, true_and, if_true, radOf, Option.bind_some, this]
        · rw [if_neg hl, if_neg (fun h => hl ⟨h.1, h.2.1⟩)]; rfl

theorem product_combine (o : AngInt.Obj) (a b c : String) :
    AngInt.product o [a, b, c] = combine (o.attr a) (o.attr b) (o.attr c) := by
  unfold AngInt.product
  rw [List.mapM_cons, List.mapM_cons, List.mapM_cons, List.mapM_nil]
  cases o.attr a <;> cases o.attr b <;> cases o.attr c <;> simp [combine, mul, AngInt.arrMul]

theorem thetaIntegral_congr (o o' : AngInt.Obj) (d d' : List String) (op : AngInt.Opts)
    (h : AngInt.product o d = AngInt.product o' d') (hmu : o.mu = o'.mu) :
    AngInt.thetaIntegral o d op = AngInt.thetaIntegral o' d' op := by
  unfold AngInt.thetaIntegral; rw [h, hmu]

end
end Verif.Coupling
