import Verif.Hough.Props
import Mathlib.Data.Complex.Basic
import Mathlib.Order.ConditionallyCompleteLattice.Finset
/-!
# Selection of the eigenpair, and C63

`hough_function.py` 682-728: from the eigenpairs computed by the eigenvalue solver to the eigenvalue and
the radial array that are kept.
-/
namespace Verif.Hough
noncomputable section
open Verif.Cheby

/-- One eigenpair as returned by `np.linalg.eig` (cheby_transform.py 180-186): complex value and
column. -/
structure Pair (M : ℕ) where
  /-- eigenvalue -/
  val : ℂ
  /-- column of the eigenvector matrix -/
  vec : Fin M → ℂ

/-- The pairs that survive the two masks: real, then negative (hough_function.py 686-693). -/
def realNegative {M : ℕ} (ps : List (Pair M)) : List (ℝ × (Fin M → ℝ)) :=
  ((ps.filter (fun q => decide (q.val.im = 0))).map (fun q => (q.val.re, fun i => (q.vec i).re))).filter
    (fun q => decide (q.1 < 0))

/-- The guess stored in `_lmbd` (hough_function.py 146-147, 699-717): nothing, a list (the first entry
counts) or a number. -/
inductive Guess
  | absent
  | list (first : ℝ) (rest : List ℝ)
  | value (x : ℝ)

/-- The value of `_lmbd` after lines 699-717 (hough_function.py). -/
def target (g : Guess) (adjust : Bool) (l : ℤ) : ℝ :=
  match g with
  | .absent => -(l : ℝ) * (l + 1)
  | .list x _ => if adjust then -1 * x else x
  | .value x => if adjust then x * (-1) else x

/-- First pair at the smallest distance to the target: `argmin` (hough_function.py 719). -/
def nearest {V : Type} (t : ℝ) : List (ℝ × V) → Option (ℝ × V)
  | [] => none
  | q :: qs => match nearest t qs with
    | none => some q
    | some r => if |t - q.1| ≤ |t - r.1| then some q else some r

/-- Sign and scale of the radial array (hough_function.py 723-727); `hr[-1]` is the last point. -/
def finish {n : ℕ} (hr : Fin (n + 1) → ℝ) : Fin (n + 1) → ℝ :=
  let hr := if hr (Fin.last n) < 0 then fun i => hr i * (-1) else hr
  fun i => hr i / ⨆ k, |hr k|

/-- Eigenvalue and radial array kept, for the list `sorted` of the surviving pairs in the order in
which `argsort` puts them (hough_function.py 694-727).  `none` is the ValueError of `argmin` on an empty
array.  The grid has at least one point. -/
def keep {n : ℕ} (sorted : List (ℝ × (Fin (n + 1) → ℝ))) (t : ℝ) : Option (ℝ × (Fin (n + 1) → ℝ)) :=
  (nearest t sorted).map fun q => (q.1, finish q.2)

/-! ### Proofs -/

theorem nearest_spec {V : Type} (t : ℝ) (qs : List (ℝ × V)) :
    (nearest t qs = none ↔ qs = []) ∧ ∀ q, nearest t qs = some q → q ∈ qs ∧ ∀ r ∈ qs, |t - q.1| ≤ |t - r.1| := by
  induction qs with
  | nil => simp [nearest]
  | cons a as ih =>
    obtain ⟨ih1, ih2⟩ := ih
    cases hn : nearest t as with
    | none =>
      have := ih1.1 hn
      subst this
      simp [nearest]
    | some r =>
      obtain ⟨hr, hm⟩ := ih2 r hn
      by_cases hc : |t - a.1| ≤ |t - r.1|
      · refine ⟨by simp [nearest, hn, hc], ?_⟩
        intro q hq
        simp only [nearest, hn, hc, if_true, Option.some.injEq] at hq
        subst hq
        refine ⟨by simp, fun s hs => ?_⟩
        rcases List.mem_cons.1 hs with rfl | hs
        · exact le_refl _
        · exact hc.trans (hm s hs)
      · refine ⟨by simp [nearest, hn, hc], ?_⟩
        intro q hq
        simp only [nearest, hn, hc, if_false, Option.some.injEq] at hq
        subst hq
        refine ⟨by simp [hr], fun s hs => ?_⟩
        rcases List.mem_cons.1 hs with rfl | hs
        · exact (not_le.1 hc).le
        · exact hm s hs

theorem finish_spec {n : ℕ} (v : Fin (n + 1) → ℝ) (hv : v ≠ 0) :
    (∃ a : ℝ, a ≠ 0 ∧ ∀ i, finish v i = a * v i) ∧ (∀ i, |finish v i| ≤ 1) ∧ (∃ i, |finish v i| = 1) ∧
      0 ≤ finish v (Fin.last n) := by
  obtain ⟨e, he, hfin, hlast⟩ : ∃ e : ℝ, |e| = 1 ∧ finish v = (fun i => (e * v i) / ⨆ k, |v k|) ∧
      0 ≤ e * v (Fin.last n) := by
    by_cases h : v (Fin.last n) < 0
    · refine ⟨-1, by norm_num, ?_, by nlinarith⟩
      funext i
      simp only [finish, h, if_true]
      simp [abs_neg]
    · refine ⟨1, by norm_num, ?_, by linarith [not_lt.1 h]⟩
      funext i
      simp only [finish, h, if_false]
      simp
  have hbd : BddAbove (Set.range fun k => |v k|) := (Set.finite_range _).bddAbove
  obtain ⟨k0, hk0⟩ : ∃ k, v k ≠ 0 := by
    by_contra hne
    push Not at hne
    exact hv (funext hne)
  have hpos : 0 < ⨆ k, |v k| := lt_of_lt_of_le (abs_pos.2 hk0) (le_ciSup hbd k0)
  obtain ⟨i0, hi0⟩ := exists_eq_ciSup_of_finite (f := fun k => |v k|)
  have hab : ∀ i, |finish v i| = |v i| / ⨆ k, |v k| := by
    intro i
    rw [hfin]
    simp only [abs_div, abs_mul, he, one_mul, abs_of_pos hpos]
  refine ⟨⟨e / ⨆ k, |v k|, ?_, ?_⟩, ?_, ⟨i0, ?_⟩, ?_⟩
  · refine div_ne_zero ?_ hpos.ne'
    intro h0; rw [h0] at he; norm_num at he
  · intro i; rw [hfin]; ring
  · intro i; rw [hab, div_le_one hpos]; exact le_ciSup hbd i
  · rw [hab, hi0, div_self hpos.ne']
  · rw [hfin]; exact div_nonneg hlast hpos.le

theorem mem_realNegative {M : ℕ} (ps : List (Pair M)) (q : ℝ × (Fin M → ℝ)) :
    q ∈ realNegative ps ↔ ∃ r ∈ ps, r.val.im = 0 ∧ r.val.re < 0 ∧ q = (r.val.re, fun i => (r.vec i).re) := by
  simp only [realNegative, List.mem_filter, List.mem_map, decide_eq_true_eq]
  constructor
  · rintro ⟨⟨r, ⟨h1, h2⟩, rfl⟩, h3⟩; exact ⟨r, h1, h2, h3, rfl⟩
  · rintro ⟨r, h1, h2, h3, rfl⟩; exact ⟨⟨r, ⟨h1, h2⟩, rfl⟩, h3⟩

/-- **C63.** Whatever eigenpairs `(value, column)` of the tidal matrix the eigenvalue solver returns
(columns of real eigenvalues having a nonzero real part), and in whatever order the sort puts them,
the result is kept from them as follows: if no eigenvalue is real and negative, the computation stops
with an error; otherwise the eigenvalue kept is a real negative eigenvalue at the smallest distance
to the target among the real negative ones, the radial array is an eigenvector for it, its largest
absolute value is 1 and its value at the last point is not negative. -/
theorem C63_selection_partial (n : ℕ) (nu : ℝ) (l m : ℤ) (d : Defn) (ps : List (Pair (n + 1)))
    (hps : ∀ q ∈ ps, ((tideMatrix ⟨n + 1, nu, l, m, d⟩).map (algebraMap ℝ ℂ)).mulVec q.vec = q.val • q.vec)
    (hre : ∀ q ∈ ps, q.val.im = 0 → (fun i => (q.vec i).re) ≠ 0)
    (sorted : List (ℝ × (Fin (n + 1) → ℝ))) (hs : sorted.Perm (realNegative ps)) (t : ℝ) :
    (keep sorted t = none ↔ ∀ q ∈ ps, q.val.im = 0 → 0 ≤ q.val.re) ∧
    ∀ lam hr, keep sorted t = some (lam, hr) →
      lam < 0 ∧ (∃ q ∈ ps, q.val = lam) ∧
      (∀ q ∈ ps, q.val.im = 0 → q.val.re < 0 → |t - lam| ≤ |t - q.val.re|) ∧
      (tideMatrix ⟨n + 1, nu, l, m, d⟩).mulVec hr = lam • hr ∧
      (∀ i, |hr i| ≤ 1) ∧ (∃ i, |hr i| = 1) ∧ 0 ≤ hr (Fin.last n) := by
  obtain ⟨hn, hsome⟩ := nearest_spec t sorted
  constructor
  · show (nearest t sorted).map _ = none ↔ _
    rw [Option.map_eq_none_iff, hn]
    constructor
    · intro h q hq him
      by_contra hlt
      have : ((q.val.re, fun i => (q.vec i).re) : ℝ × (Fin (n + 1) → ℝ)) ∈ realNegative ps :=
        (mem_realNegative ps _).2 ⟨q, hq, him, not_le.1 hlt, rfl⟩
      rw [← hs.mem_iff, h] at this
      simp at this
    · intro h
      by_contra hne
      obtain ⟨q, hq⟩ := List.exists_mem_of_ne_nil _ hne
      rw [hs.mem_iff] at hq
      obtain ⟨r, h1, h2, h3, _⟩ := (mem_realNegative ps _).1 hq
      exact absurd (h r h1 h2) (not_le.2 h3)
  · intro lam hr hout
    replace hout : (nearest t sorted).map (fun q => (q.1, finish q.2)) = some (lam, hr) := hout
    obtain ⟨q, hq, hqe⟩ := Option.map_eq_some_iff.1 hout
    obtain ⟨hqm, hmin⟩ := hsome q hq
    obtain ⟨rfl, rfl⟩ := Prod.mk.inj hqe
    rw [hs.mem_iff] at hqm
    obtain ⟨r, h1, h2, h3, rfl⟩ := (mem_realNegative ps _).1 hqm
    have hval : r.val = ((r.val.re : ℝ) : ℂ) := by apply Complex.ext <;> simp [h2]
    obtain ⟨⟨a, _, ha⟩, b1, b2, b3⟩ := finish_spec _ (hre r h1 h2)
    refine ⟨h3, ⟨r, h1, hval⟩, ?_, ?_, b1, b2, b3⟩
    · intro s hs1 hs2 hs3
      exact hmin (s.val.re, fun i => (s.vec i).re) (hs.mem_iff.2 ((mem_realNegative ps _).2 ⟨s, hs1, hs2, hs3, rfl⟩))
    · have key : (tideMatrix ⟨n + 1, nu, l, m, d⟩).mulVec (fun i => (r.vec i).re) = r.val.re • fun i => (r.vec i).re := by
        have h0 := hps r h1
        funext i
        have hi := congrFun h0 i
        have hi' := congrArg Complex.re hi
        rw [hval] at hi'
        simp only [Matrix.mulVec, dotProduct, Matrix.map_apply, Pi.smul_apply, smul_eq_mul, Complex.re_sum,
          Complex.re_ofReal_mul, Complex.coe_algebraMap] at hi'
        simpa [Matrix.mulVec, dotProduct] using hi'
      have hfn : finish (fun i => (r.vec i).re) = a • fun i => (r.vec i).re := by
        funext i; rw [ha]; rfl
      show (tideMatrix ⟨n + 1, nu, l, m, d⟩).mulVec (finish fun i => (r.vec i).re) = _
      rw [hfn, Matrix.mulVec_smul, key, smul_comm]

/-- **C63.** The target: minus the supplied GYRE eigenvalue (or the supplied value itself when no
adjustment is requested), and `-l (l+1)` when none is supplied. -/
theorem C63_target (x : ℝ) (rest : List ℝ) (l : ℤ) (adjust : Bool) :
    target .absent adjust l = -((l : ℝ) * (l + 1)) ∧ target (.value x) true l = -x ∧ target (.value x) false l = x ∧
    target (.list x rest) true l = -x ∧ target (.list x rest) false l = x := by
  simp [target]

/-- **C63 refuted** for repeated calls: the object stores the target over the guess, so calling it a second time with sign
adjustment aims at the opposite value: whatever the target of the first call (not positive, as it is without a guess or
with the positive eigenvalue of GYRE), the second call keeps the negative eigenvalue nearest zero, which is the one of
the first call only if that was the one nearest zero. -/
theorem C63_second_call_wrong {n : ℕ} (sorted : List (ℝ × (Fin (n + 1) → ℝ))) (hneg : ∀ q ∈ sorted, q.1 < 0)
    (g : Guess) (l : ℤ) (hg : target g true l ≤ 0) (q1 q2 : ℝ × (Fin (n + 1) → ℝ))
    (h1 : keep sorted (target g true l) = some q1) (h2 : keep sorted (target (.value (target g true l)) true l) = some q2) :
    (∀ q ∈ sorted, q.1 ≤ q2.1) ∧ (q1.1 = q2.1 ↔ ∀ q ∈ sorted, q.1 ≤ q1.1) := by
  have mem : ∀ t q, keep sorted t = some q → ∃ v, (q.1, v) ∈ sorted ∧ ∀ r ∈ sorted, |t - q.1| ≤ |t - r.1| := by
    intro t q hq
    obtain ⟨p, hp, rfl⟩ := Option.map_eq_some_iff.1 hq
    obtain ⟨hm, hmin⟩ := (nearest_spec t sorted).2 p hp
    exact ⟨p.2, hm, hmin⟩
  obtain ⟨v1, m1, -⟩ := mem _ _ h1
  obtain ⟨v2, m2, k2⟩ := mem _ _ h2
  have hmax : ∀ q ∈ sorted, q.1 ≤ q2.1 := by
    intro q hq
    have h := k2 q hq
    have e : target (.value (target g true l)) true l = -target g true l := by simp [target]
    rw [e] at h
    have a := hneg q hq
    have b : q2.1 < 0 := hneg (q2.1, v2) m2
    rw [abs_of_pos (by linarith), abs_of_pos (by linarith)] at h
    linarith
  refine ⟨hmax, fun h => by rw [h]; exact hmax, fun h => ?_⟩
  exact le_antisymm (hmax (q1.1, v1) m1) (h (q2.1, v2) m2)

/-- Without a guess the target of the first call is not positive. -/
theorem target_absent_nonpos (l : ℤ) : target .absent true l ≤ 0 := by
  have h : 0 ≤ l * (l + 1) := by
    rcases le_or_gt 0 l with h | h
    · positivity
    · exact mul_nonneg_of_nonpos_of_nonpos (by omega) (by omega)
  have : (0 : ℝ) ≤ (l : ℝ) * (l + 1) := by exact_mod_cast h
  simp only [target]
  linarith

/-- A case (`-2` instead of `-12` for `l = 3`, although the eigenpairs are the same). -/
example : ∃ (sorted : List (ℝ × (Fin 1 → ℝ))) (l : ℤ), (∀ q ∈ sorted, q.1 < 0) ∧
    let t1 := target .absent true l
    let t2 := target (.value t1) true l
    t2 = -t1 ∧ (keep sorted t1).map Prod.fst = some (-12) ∧ (keep sorted t2).map Prod.fst = some (-2) := by
  refine ⟨[(-12, fun _ => 1), (-2, fun _ => 1)], 3, by simp, ?_⟩
  refine ⟨by norm_num [target], ?_, ?_⟩
  · norm_num [target, keep, nearest, abs_of_neg, abs_of_pos]
  · norm_num [target, keep, nearest, abs_of_neg, abs_of_pos]

/-- Non-vacuity of `C63_selection_partial`: one point, no rotation, `l = m = 2`; the matrix is `-8`. -/
example : ∃ ps : List (Pair 1), ps ≠ [] ∧
    (∀ q ∈ ps, ((tideMatrix (cex .prat)).map (algebraMap ℝ ℂ)).mulVec q.vec = q.val • q.vec) ∧
    (∀ q ∈ ps, q.val.im = 0 → (fun i => (q.vec i).re) ≠ 0) := by
  refine ⟨[⟨(tideMatrix (cex .prat) (0 : Fin 1) (0 : Fin 1) : ℝ), fun _ => 1⟩], by simp, ?_, ?_⟩
  · intro q hq
    simp only [List.mem_singleton] at hq
    subst hq
    funext i
    have hi : i = (0 : Fin 1) := Subsingleton.elim (α := Fin 1) _ _
    rw [hi]
    simp only [Matrix.mulVec, dotProduct, Pi.smul_apply, smul_eq_mul, mul_one, Matrix.map_apply]
    exact Fintype.sum_eq_single (0 : Fin 1) fun k hk => absurd (Subsingleton.elim (α := Fin 1) _ _) hk
  · intro q hq _ h0
    simp only [List.mem_singleton] at hq
    subst hq
    have := congrFun h0 (0 : Fin 1)
    simp at this

end
end Verif.Hough
