import Verif.Assemble.Model
import Mathlib.Tactic.Linarith
import Mathlib.Tactic.FieldSimp
import Mathlib.Tactic.Ring
import Mathlib.Tactic.LinearCombination
/-! # Interpolation lemmas -/
namespace Verif.Assemble
noncomputable section
open Classical

namespace Spec
/-- `v` is the value at `t` of the piecewise linear function through the points `(xp_j, fp_j)`, constant beyond the ends. -/
def PiecewiseLinear (xp fp : List ℝ) (t v : ℝ) : Prop :=
  (t ≤ xp.getD 0 0 ∧ v = fp.getD 0 0) ∨ (xp.getD (xp.length - 1) 0 ≤ t ∧ v = fp.getD (xp.length - 1) 0) ∨
  ∃ j, j + 1 < xp.length ∧ xp.getD j 0 ≤ t ∧ t ≤ xp.getD (j + 1) 0 ∧
    (v - fp.getD j 0) * (xp.getD (j + 1) 0 - xp.getD j 0) = (fp.getD (j + 1) 0 - fp.getD j 0) * (t - xp.getD j 0)

/-- A strictly increasing grid. -/
def Increasing (x : List ℝ) : Prop := ∀ i j, i < j → j < x.length → x.getD i 0 < x.getD j 0
end Spec

theorem take_le (xp : List ℝ) (t : ℝ) (i : ℕ) (h : i < (xp.takeWhile (fun v => decide (v ≤ t))).length) : xp.getD i 0 ≤ t := by
  induction xp generalizing i with
  | nil => simp at h
  | cons a l ih =>
    by_cases ha : a ≤ t
    · rw [List.takeWhile_cons_of_pos (by simpa using ha)] at h
      cases i with
      | zero => simpa using ha
      | succ i => exact ih i (by simpa using h)
    · rw [List.takeWhile_cons_of_neg (by simpa using ha)] at h
      simp at h

theorem take_lt (xp : List ℝ) (t : ℝ) (h : (xp.takeWhile (fun v => decide (v ≤ t))).length < xp.length) :
    t < xp.getD (xp.takeWhile (fun v => decide (v ≤ t))).length 0 := by
  induction xp with
  | nil => simp at h
  | cons a l ih =>
    by_cases ha : a ≤ t
    · rw [List.takeWhile_cons_of_pos (by simpa using ha)] at h ⊢
      exact ih (by simpa using h)
    · rw [List.takeWhile_cons_of_neg (by simpa using ha)]
      simpa using not_le.1 ha

theorem take_len (xp : List ℝ) (t : ℝ) : (xp.takeWhile (fun v => decide (v ≤ t))).length ≤ xp.length :=
  List.IsPrefix.length_le (List.takeWhile_prefix _)

theorem take_pos (xp : List ℝ) (t : ℝ) (hne : xp ≠ []) (h : ¬ t < xp.getD 0 0) :
    0 < (xp.takeWhile (fun v => decide (v ≤ t))).length := by
  cases xp with
  | nil => exact absurd rfl hne
  | cons a l =>
    rw [List.takeWhile_cons_of_pos (by simpa using h)]; simp

theorem interpAt_spec (xp fp : List ℝ) (t : ℝ) (hne : xp ≠ []) : Spec.PiecewiseLinear xp fp t (interpAt xp fp t) := by
  unfold interpAt
  have hlen := take_len xp t
  simp only
  by_cases h0 : t < xp.getD 0 0
  · rw [if_pos h0]; exact Or.inl ⟨h0.le, rfl⟩
  · rw [if_neg h0]
    have hp := take_pos xp t hne h0
    set L := (xp.takeWhile (fun v => decide (v ≤ t))).length with hL
    have h1 : xp.getD (L - 1) 0 ≤ t := take_le xp t (L - 1) (by omega)
    by_cases hj : L - 1 + 1 < xp.length
    · rw [if_pos hj]
      have h2 : t < xp.getD (L - 1 + 1) 0 := by
        have := take_lt xp t (by omega)
        rw [← hL] at this
        rwa [Nat.sub_add_cancel hp]
      refine Or.inr (Or.inr ⟨L - 1, hj, h1, h2.le, ?_⟩)
      have hd : xp.getD (L - 1 + 1) 0 - xp.getD (L - 1) 0 ≠ 0 := by
        have : xp.getD (L - 1) 0 < xp.getD (L - 1 + 1) 0 := lt_of_le_of_lt h1 h2
        exact (sub_pos.2 this).ne'
      rw [add_sub_cancel_left, mul_right_comm, div_mul_cancel₀ _ hd]
    · rw [if_neg hj]
      have : L - 1 = xp.length - 1 := by omega
      rw [this] at h1
      exact Or.inr (Or.inl ⟨h1, rfl⟩)

/-- On an increasing grid the value is unique. -/
theorem piecewise_unique (xp fp : List ℝ) (t v w : ℝ) (hx : Spec.Increasing xp) (hv : Spec.PiecewiseLinear xp fp t v)
    (hw : Spec.PiecewiseLinear xp fp t w) : v = w := by
  have key : ∀ v, Spec.PiecewiseLinear xp fp t v → ∀ j, j + 1 < xp.length → xp.getD j 0 ≤ t → t ≤ xp.getD (j + 1) 0 →
      (v - fp.getD j 0) * (xp.getD (j + 1) 0 - xp.getD j 0) = (fp.getD (j + 1) 0 - fp.getD j 0) * (t - xp.getD j 0) := by
    intro v hv j hj h1 h2
    rcases hv with ⟨h, rfl⟩ | ⟨h, rfl⟩ | ⟨i, hi, a1, a2, a3⟩
    · rcases Nat.eq_zero_or_pos j with rfl | hj0
      · have : t = xp.getD 0 0 := le_antisymm h h1
        rw [this]; ring
      · have := hx 0 j hj0 (by omega)
        linarith
    · have hlast : j + 1 = xp.length - 1 := by
        by_contra hc
        have := hx (j + 1) (xp.length - 1) (by omega) (by omega)
        linarith
      rw [← hlast] at h ⊢
      have : t = xp.getD (j + 1) 0 := le_antisymm h2 h
      rw [this]
    · rcases lt_trichotomy i j with hij | rfl | hij
      · have : i + 1 = j := by
          by_contra hc
          have := hx (i + 1) j (by omega) (by omega)
          linarith
        subst this
        have ht : t = xp.getD (i + 1) 0 := le_antisymm a2 h1
        have hd := hx i (i + 1) (by omega) (by omega)
        rw [ht] at a3 ⊢
        have : v - fp.getD i 0 = fp.getD (i + 1) 0 - fp.getD i 0 :=
          mul_right_cancel₀ (sub_pos.2 hd).ne' a3
        rw [show v - fp.getD (i + 1) 0 = 0 by linarith]; ring
      · exact a3
      · have : j + 1 = i := by
          by_contra hc
          have := hx (j + 1) i (by omega) (by omega)
          linarith
        subst this
        have ht : t = xp.getD (j + 1) 0 := le_antisymm h2 a1
        have hd := hx (j + 1) (j + 1 + 1) (by omega) (by omega)
        rw [ht] at a3 ⊢
        have : v - fp.getD (j + 1) 0 = 0 := by
          have : (v - fp.getD (j + 1) 0) * (xp.getD (j + 1 + 1) 0 - xp.getD (j + 1) 0) = 0 := by rw [a3]; ring
          exact (mul_eq_zero.1 this).resolve_right (sub_pos.2 hd).ne'
        rw [show v = fp.getD (j + 1) 0 by linarith]
  have other : ∀ v w, Spec.PiecewiseLinear xp fp t v → Spec.PiecewiseLinear xp fp t w →
      (∃ j, j + 1 < xp.length ∧ xp.getD j 0 ≤ t ∧ t ≤ xp.getD (j + 1) 0) → v = w := by
    rintro v w hv hw ⟨j, hj, h1, h2⟩
    have e1 := key v hv j hj h1 h2
    have e2 := key w hw j hj h1 h2
    have hd := hx j (j + 1) (by omega) hj
    have : v - fp.getD j 0 = w - fp.getD j 0 := mul_right_cancel₀ (sub_pos.2 hd).ne' (e1.trans e2.symm)
    linarith
  rcases hv with ⟨h, hv'⟩ | ⟨h, hv'⟩ | ⟨i, hi, a1, a2, a3⟩
  · rcases hw with ⟨k, hw'⟩ | ⟨k, hw'⟩ | ⟨i, hi, a1, a2, a3⟩
    · rw [hv', hw']
    · by_cases hl : xp.length - 1 = 0
      · rw [hl] at hw'; rw [hv', hw']
      · have := hx 0 (xp.length - 1) (by omega) (by omega)
        linarith
    · exact other v w (Or.inl ⟨h, hv'⟩) (Or.inr (Or.inr ⟨i, hi, a1, a2, a3⟩)) ⟨i, hi, a1, a2⟩
  · rcases hw with ⟨k, hw'⟩ | ⟨k, hw'⟩ | ⟨i, hi, a1, a2, a3⟩
    · by_cases hl : xp.length - 1 = 0
      · rw [hl] at hv'; rw [hv', hw']
      · have := hx 0 (xp.length - 1) (by omega) (by omega)
        linarith
    · rw [hv', hw']
    · exact other v w (Or.inr (Or.inl ⟨h, hv'⟩)) (Or.inr (Or.inr ⟨i, hi, a1, a2, a3⟩)) ⟨i, hi, a1, a2⟩
  · exact other v w (Or.inr (Or.inr ⟨i, hi, a1, a2, a3⟩)) hw ⟨i, hi, a1, a2⟩

theorem piecewise_knot (xp fp : List ℝ) (i : ℕ) (hi : i < xp.length) (hx : Spec.Increasing xp) :
    Spec.PiecewiseLinear xp fp (xp.getD i 0) (fp.getD i 0) := by
  by_cases h : i + 1 < xp.length
  · exact Or.inr (Or.inr ⟨i, h, le_rfl, (hx i (i + 1) (by omega) h).le, by ring⟩)
  · have : i = xp.length - 1 := by omega
    rw [this]
    exact Or.inr (Or.inl ⟨le_rfl, rfl⟩)

/-- Interpolation to the own grid changes nothing. -/
theorem npInterp_self (x f : List ℝ) (hx : Spec.Increasing x) (hne : x ≠ []) (hf : f.length = x.length) :
    npInterp x x f = some f := by
  unfold npInterp
  rw [if_neg (by simp [hne, hf])]
  congr 1
  apply List.ext_getElem
  · simp [hf]
  · intro i h1 h2
    rw [List.getElem_map]
    have hi : i < x.length := by simpa using h1
    have e := piecewise_unique x f _ _ _ hx (interpAt_spec x f (x.getD i 0) hne) (piecewise_knot x f i hi hx)
    have e1 : x.getD i 0 = x[i] := by rw [List.getD_eq_getElem?_getD, List.getElem?_eq_getElem hi]; rfl
    have e2 : f.getD i 0 = f[i] := by rw [List.getD_eq_getElem?_getD, List.getElem?_eq_getElem h2]; rfl
    rw [e1, e2] at e
    exact e

/-- Affine functions are interpolated exactly inside the grid. -/
theorem interpAt_affine (x : List ℝ) (a b t : ℝ) (hx : Spec.Increasing x) (hne : x ≠ []) (h0 : x.getD 0 0 ≤ t)
    (h1 : t ≤ x.getD (x.length - 1) 0) : interpAt x (x.map fun v => a * v + b) t = a * t + b := by
  have hpos : 0 < x.length := List.length_pos_of_ne_nil hne
  have e : ∀ j, j < x.length → (x.map fun v => a * v + b).getD j 0 = a * x.getD j 0 + b := by
    intro j hj
    simp [List.getD_eq_getElem?_getD, List.getElem?_eq_getElem hj]
  rcases interpAt_spec x (x.map fun v => a * v + b) t hne with ⟨h, hv⟩ | ⟨h, hv⟩ | ⟨j, hj, h, h', hv⟩
  · rw [hv, e 0 hpos, le_antisymm h h0]
  · rw [hv, e _ (by omega), le_antisymm h1 h]
  · rw [e j (by omega), e (j + 1) hj] at hv
    have hd := hx j (j + 1) (by omega) hj
    have : (interpAt x (x.map fun v => a * v + b) t - (a * t + b)) * (x.getD (j + 1) 0 - x.getD j 0) = 0 := by
      linear_combination hv
    linarith [(mul_eq_zero.1 this).resolve_right (sub_pos.2 hd).ne']

end
end Verif.Assemble
