import Verif.Figs.Model
import Mathlib.Tactic.Ring
import Mathlib.Tactic.FieldSimp
import Mathlib.Tactic.Linarith
import Mathlib.Tactic.NormNum
import Mathlib.Tactic.Positivity
import Mathlib.Tactic.Push
import Mathlib.Tactic.FinCases
import Mathlib.Data.Fintype.Card
import Mathlib.Algebra.Order.BigOperators.Ring.Finset
/-!
# C135, C136: the points near the threshold and the regression
-/
namespace Verif.Figs
open Finset

/-! ### C135 -/

theorem nanLe_trans {a b c : Option ℝ} (h1 : nanLe a b) (h2 : nanLe b c) : nanLe a c := by
  cases a with
  | none =>
    cases b with
    | none => cases c with
      | none => trivial
      | some z => exact h2.elim
    | some y => exact h1.elim
  | some x =>
    cases c with
    | none => trivial
    | some z => cases b with
      | none => exact h2.elim
      | some y => exact le_trans (α := ℝ) h1 h2

theorem nanLe_refl (a : Option ℝ) : nanLe a a := by
  cases a with
  | none => trivial
  | some x => exact le_refl x

variable {n : ℕ}

/-- The first elements of a partition are distinct, and none is greater than one that was left out. -/
theorem part_first {a : Fin n → Option ℝ} {k : ℕ} {p : List (Fin n)} (h : IsArgPartition a k p) :
    (p.take k).length = k ∧ (p.take k).Nodup ∧ ∀ i ∈ p.take k, ∀ j, j ∉ p.take k → nanLe (a i) (a j) := by
  have hl : p.length = n := by rw [h.perm.length_eq, List.length_finRange]
  have hnd : p.Nodup := h.perm.nodup_iff.2 (List.nodup_finRange n)
  refine ⟨by rw [List.length_take, hl]; exact min_eq_left h.lt.le, hnd.sublist (List.take_sublist k p), ?_⟩
  intro i hi j hj
  have hk : k < p.length := by rw [hl]; exact h.lt
  have hjp : j ∈ p := h.perm.mem_iff.2 (List.mem_finRange j)
  rw [← List.take_append_drop k p, List.mem_append] at hjp
  have hd := hjp.resolve_left hj
  rw [List.drop_eq_getElem_cons hk, List.mem_cons] at hd
  have hg : p[k]? = some p[k] := List.getElem?_eq_getElem hk
  rcases hd with rfl | hd
  · exact h.before i hi _ hg
  · exact nanLe_trans (h.before i hi _ hg) (h.after j hd _ hg)

/-- Elements that are not NaN come first: if there are at least `k` of them, the first `k` are such. -/
theorem part_some {a : Fin n → Option ℝ} {k : ℕ} {p : List (Fin n)} (h : IsArgPartition a k p) (S : Finset (Fin n))
    (hS : ∀ i, i ∈ S ↔ a i ≠ none) (hk : k ≤ S.card) : ∀ i ∈ p.take k, a i ≠ none := by
  obtain ⟨h1, h2, h3⟩ := part_first h
  intro i hi hn
  have hsub : S ⊆ (p.take k).toFinset.erase i := by
    intro j hj
    have hjn := (hS j).1 hj
    rw [Finset.mem_erase, List.mem_toFinset]
    refine ⟨fun q => hjn (q ▸ hn), ?_⟩
    by_contra hc
    have := h3 i hi j hc
    rw [hn] at this
    cases hj' : a j with
    | none => exact hjn hj'
    | some y => rw [hj'] at this; exact this.elim
  have hc := Finset.card_le_card hsub
  rw [Finset.card_erase_of_mem (List.mem_toFinset.2 hi), List.toFinset_card_of_nodup h2, h1] at hc
  have : 0 < k := by
    rw [← h1]
    exact List.length_pos_of_mem hi
  omega

theorem posDiff_ne {r : ℝ} : posDiff r ≠ none ↔ 1 < r := by
  unfold posDiff
  split_ifs with h
  · exact ⟨fun _ => by linarith, fun _ => by simp⟩
  · exact ⟨fun q => absurd rfl q, fun q => absurd (by linarith) h⟩

theorem negDiff_ne {r : ℝ} : (negDiff r).map (fun x => |x|) ≠ none ↔ r ≤ 1 := by
  unfold negDiff
  split_ifs with h
  · exact ⟨fun q => absurd rfl q, fun q => absurd h (by linarith)⟩
  · exact ⟨fun _ => by linarith, fun _ => by simp⟩

theorem posDiff_of {r : ℝ} (h : 1 < r) : posDiff r = some (r - 1) := by
  unfold posDiff
  rw [if_pos (by linarith)]

theorem negDiff_of {r : ℝ} (h : r ≤ 1) : (negDiff r).map (fun x => |x|) = some (1 - r) := by
  unfold negDiff
  rw [if_neg (by linarith), Option.map_some, abs_of_nonpos (by linarith)]
  congr 1
  ring

/-- `l` are `k` points on one side of the threshold (`side`), the closest ones. -/
def Closest (ratio : Fin n → ℝ) (side : ℝ → Prop) (k : ℕ) (l : List (Fin n)) : Prop :=
  l.length = k ∧ l.Nodup ∧ (∀ i ∈ l, side (ratio i)) ∧ ∀ i ∈ l, ∀ j, j ∉ l → side (ratio j) → |ratio i - 1| ≤ |ratio j - 1|

/-- C135, partial: if there are at least `k` ratios above one and `k` not above one, the points of the regression are the `k` closest to
one on each side, none twice, and the angles and ratios are those of the same points in the same order. -/
theorem C135_closest_partial (k : ℕ) (theta ratio : Fin n → ℝ) (pos neg : List (Fin n)) (h : Masks k ratio pos neg)
    (hp : k ≤ (univ.filter fun i => 1 < ratio i).card) (hn : k ≤ (univ.filter fun i => ratio i ≤ 1).card) :
    ∃ above below : List (Fin n), Closest ratio (fun r => 1 < r) k above ∧ Closest ratio (fun r => r ≤ 1) k below ∧
      (above ++ below).Nodup ∧ points k theta pos neg = (above ++ below).map theta ∧ points k ratio pos neg = (above ++ below).map ratio := by
  obtain ⟨p1, p2, p3⟩ := part_first h.pos
  obtain ⟨n1, n2, n3⟩ := part_first h.neg
  have hps : ∀ i ∈ pos.take k, 1 < ratio i := fun i hi =>
    posDiff_ne.1 (part_some h.pos (univ.filter fun i => 1 < ratio i) (fun i => by rw [posDiff_ne]; simp) hp i hi)
  have hns : ∀ i ∈ neg.take k, ratio i ≤ 1 := fun i hi =>
    negDiff_ne.1 (part_some h.neg (univ.filter fun i => ratio i ≤ 1) (fun i => by rw [negDiff_ne]; simp) hn i hi)
  refine ⟨pos.take k, neg.take k, ⟨p1, p2, hps, ?_⟩, ⟨n1, n2, hns, ?_⟩, ?_, rfl, rfl⟩
  · intro i hi j hj hs
    have := p3 i hi j hj
    rw [posDiff_of (hps i hi), posDiff_of hs] at this
    have t : ratio i - 1 ≤ ratio j - 1 := this
    have hi' := hps i hi
    rwa [abs_of_pos (by linarith), abs_of_pos (by linarith)]
  · intro i hi j hj hs
    have := n3 i hi j hj
    rw [negDiff_of (hns i hi), negDiff_of hs] at this
    have t : 1 - ratio i ≤ 1 - ratio j := this
    have hi' := hns i hi
    rw [abs_of_nonpos (by linarith), abs_of_nonpos (by linarith)]
    linarith
  · rw [List.nodup_append]
    refine ⟨p2, n2, ?_⟩
    intro i hi j hj q
    subst q
    have a := hps i hi
    have b := hns i hj
    linarith

/-- C135 is refuted if there are fewer than `k` ratios above one: then points that are not above one are taken as if they were. -/
theorem C135_few_points_wrong (k : ℕ) (ratio : Fin n → ℝ) (pos neg : List (Fin n)) (h : Masks k ratio pos neg)
    (hp : (univ.filter fun i => 1 < ratio i).card < k) : ∃ i ∈ pos.take k, ratio i ≤ 1 := by
  obtain ⟨p1, p2, _⟩ := part_first h.pos
  by_contra hc
  push Not at hc
  have : (pos.take k).toFinset ⊆ univ.filter fun i => 1 < ratio i := by
    intro i hi
    rw [Finset.mem_filter]
    exact ⟨Finset.mem_univ i, hc i (List.mem_toFinset.1 hi)⟩
  have := Finset.card_le_card this
  rw [List.toFinset_card_of_nodup p2, p1] at this
  omega

/-- A partition exists for four ratios, two on each side; and for four ratios with one above one. -/
example : Masks 1 ![3, 2, (1 : ℝ) / 2, 1 / 4] [1, 0, 2, 3] [2, 3, 0, 1] := by
  constructor
  · refine ⟨by decide, by decide, ?_, ?_⟩
    · intro i hi j hj
      rw [show ([1, 0, 2, 3] : List (Fin 4)).take 1 = [1] from rfl, List.mem_singleton] at hi
      rw [show ([1, 0, 2, 3] : List (Fin 4))[1]? = some 0 from rfl] at hj
      cases hj; subst hi
      show nanLe (posDiff 2) (posDiff 3)
      rw [posDiff_of (by norm_num), posDiff_of (by norm_num)]
      show (2 : ℝ) - 1 ≤ 3 - 1
      norm_num
    · intro i hi j hj
      rw [show ([1, 0, 2, 3] : List (Fin 4)).drop 2 = [2, 3] from rfl] at hi
      rw [show ([1, 0, 2, 3] : List (Fin 4))[1]? = some 0 from rfl] at hj
      cases hj
      have e : posDiff (1 / 2) = none ∧ posDiff (1 / 4) = none := by unfold posDiff; norm_num
      simp only [List.mem_cons, List.not_mem_nil, or_false] at hi
      rcases hi with rfl | rfl
      · show nanLe (posDiff 3) (posDiff (1 / 2)); rw [e.1]; cases posDiff 3 <;> trivial
      · show nanLe (posDiff 3) (posDiff (1 / 4)); rw [e.2]; cases posDiff 3 <;> trivial
  · refine ⟨by decide, by decide, ?_, ?_⟩
    · intro i hi j hj
      rw [show ([2, 3, 0, 1] : List (Fin 4)).take 1 = [2] from rfl, List.mem_singleton] at hi
      rw [show ([2, 3, 0, 1] : List (Fin 4))[1]? = some 3 from rfl] at hj
      cases hj; subst hi
      show nanLe ((negDiff (1 / 2)).map fun x => |x|) ((negDiff (1 / 4)).map fun x => |x|)
      rw [negDiff_of (by norm_num), negDiff_of (by norm_num)]
      show (1 : ℝ) - 1 / 2 ≤ 1 - 1 / 4
      norm_num
    · intro i hi j hj
      rw [show ([2, 3, 0, 1] : List (Fin 4)).drop 2 = [0, 1] from rfl] at hi
      rw [show ([2, 3, 0, 1] : List (Fin 4))[1]? = some 3 from rfl] at hj
      cases hj
      have e : negDiff 3 = none ∧ negDiff 2 = none := by unfold negDiff; norm_num
      simp only [List.mem_cons, List.not_mem_nil, or_false] at hi
      rcases hi with rfl | rfl
      · show nanLe ((negDiff (1 / 4)).map fun x => |x|) ((negDiff 3).map fun x => |x|); rw [e.1]; cases negDiff (1 / 4) <;> trivial
      · show nanLe ((negDiff (1 / 4)).map fun x => |x|) ((negDiff 2).map fun x => |x|); rw [e.2]; cases negDiff (1 / 4) <;> trivial

/-- Two ratios below one: there is a partition, and none above one. -/
example : Masks 1 ![1 / 2, (1 : ℝ) / 4] [0, 1] [0, 1] ∧ (univ.filter fun i : Fin 2 => 1 < ![1 / 2, (1 : ℝ) / 4] i).card < 1 := by
  have e : posDiff (1 / 2) = none ∧ posDiff (1 / 4) = none := by unfold posDiff; norm_num
  refine ⟨⟨⟨by decide, by decide, ?_, ?_⟩, ⟨by decide, by decide, ?_, ?_⟩⟩, ?_⟩
  · intro i hi j hj
    rw [show ([0, 1] : List (Fin 2))[1]? = some 1 from rfl] at hj
    cases hj
    show nanLe _ (posDiff (1 / 4))
    rw [e.2]
    cases posDiff (![1 / 2, (1 : ℝ) / 4] i) <;> trivial
  · intro i hi
    cases hi
  · intro i hi j hj
    rw [show ([0, 1] : List (Fin 2)).take 1 = [0] from rfl, List.mem_singleton] at hi
    rw [show ([0, 1] : List (Fin 2))[1]? = some 1 from rfl] at hj
    cases hj; subst hi
    show nanLe ((negDiff (1 / 2)).map fun x => |x|) ((negDiff (1 / 4)).map fun x => |x|)
    rw [negDiff_of (by norm_num), negDiff_of (by norm_num)]
    show (1 : ℝ) - 1 / 2 ≤ 1 - 1 / 4
    norm_num
  · intro i hi
    cases hi
  · rw [Nat.lt_one_iff, Finset.card_eq_zero, Finset.filter_eq_empty_iff]
    intro i _
    fin_cases i
    · show ¬ (1 : ℝ) < 1 / 2; norm_num
    · show ¬ (1 : ℝ) < 1 / 4; norm_num

/-! ### C136 -/

/-- Sum of squares about the mean. -/
noncomputable def sxx (x : Fin n → ℝ) : ℝ := ∑ i, (x i - mean x) ^ 2

/-- Sum of squared residuals of the line `a + b x`. -/
noncomputable def sse (x y : Fin n → ℝ) (a b : ℝ) : ℝ := ∑ i, (y i - (a + b * x i)) ^ 2

theorem cov_self (x : Fin n → ℝ) : cov x x = sxx x / n := by
  unfold cov sxx
  congr 1
  exact sum_congr rfl fun i _ => by ring

theorem npos_of_sxx {x : Fin n → ℝ} (h : cov x x ≠ 0) : 0 < n := by
  rcases Nat.eq_zero_or_pos n with rfl | hn
  · exact absurd (by unfold cov; simp) h
  · exact hn

theorem sum_dev (x : Fin n → ℝ) (hn : 0 < n) : ∑ i, (x i - mean x) = 0 := by
  have hR : (n : ℝ) ≠ 0 := by exact_mod_cast hn.ne'
  rw [sum_sub_distrib, sum_const, card_univ, Fintype.card_fin, nsmul_eq_mul]
  unfold mean
  field_simp
  ring

/-- The residuals about any line, by the slope and the value at the mean. -/
theorem sse_eq (x y : Fin n → ℝ) (hn : 0 < n) (a b : ℝ) :
    sse x y a b = sxx y - 2 * b * (n * cov x y) + b ^ 2 * sxx x + n * (mean y - a - b * mean x) ^ 2 := by
  have hR : (n : ℝ) ≠ 0 := by exact_mod_cast hn.ne'
  have hc : (n : ℝ) * cov x y = ∑ i, (x i - mean x) * (y i - mean y) := by
    unfold cov
    field_simp
  have e : ∀ i, (y i - (a + b * x i)) ^ 2 = (y i - mean y) ^ 2 - 2 * b * ((x i - mean x) * (y i - mean y)) + b ^ 2 * (x i - mean x) ^ 2 +
      (mean y - a - b * mean x) ^ 2 + 2 * (mean y - a - b * mean x) * (y i - mean y) - 2 * b * (mean y - a - b * mean x) * (x i - mean x) := by
    intro i; ring
  unfold sse
  rw [sum_congr rfl fun i _ => e i]
  rw [sum_sub_distrib, sum_add_distrib, sum_add_distrib, sum_add_distrib, sum_sub_distrib, ← mul_sum, ← mul_sum, ← mul_sum, ← mul_sum,
    sum_dev x hn, sum_dev y hn, sum_const, card_univ, Fintype.card_fin, nsmul_eq_mul, hc]
  unfold sxx
  ring

theorem linregress_eq {x y : Fin n → ℝ} {l : LinResult} (h : linregress x y = some l) :
    cov x x ≠ 0 ∧ l.slope = cov x y / cov x x ∧ l.intercept = mean y - cov x y / cov x x * mean x := by
  unfold linregress at h
  dsimp only at h
  by_cases h0 : cov x x = 0
  · rw [if_pos h0] at h; cases h
  · rw [if_neg h0] at h
    refine ⟨h0, ?_⟩
    split_ifs at h <;> (cases h; exact ⟨rfl, rfl⟩)

/-- C136: the line is the least-squares line: no other has a smaller sum of squared residuals. -/
theorem C136_least_squares (theta ratio : Fin n → ℝ) (l : LinResult) (h : linregress ratio theta = some l) (a b : ℝ) :
    sse ratio theta l.intercept l.slope ≤ sse ratio theta a b := by
  obtain ⟨h0, hs, hi⟩ := linregress_eq h
  have hn := npos_of_sxx h0
  have hR : (0 : ℝ) < n := by exact_mod_cast hn
  rw [sse_eq _ _ hn, sse_eq _ _ hn, hs, hi]
  have hx : sxx ratio = n * cov ratio ratio := by rw [cov_self]; field_simp
  rw [hx]
  set c := cov ratio theta
  set v := cov ratio ratio
  have hv : 0 < v := by
    refine lt_of_le_of_ne ?_ (Ne.symm h0)
    show 0 ≤ cov ratio ratio
    rw [cov_self]
    exact div_nonneg (sum_nonneg fun i _ => sq_nonneg _) hR.le
  have key : 0 ≤ n * v * (b - c / v) ^ 2 + n * (mean theta - a - b * mean ratio) ^ 2 := by positivity
  have e : n * v * (b - c / v) ^ 2 = -(2 * b * (n * c)) + b ^ 2 * (n * v) - (-(2 * (c / v) * (n * c)) + (c / v) ^ 2 * (n * v)) := by
    field_simp
    ring
  have z : mean theta - (mean theta - c / v * mean ratio) - c / v * mean ratio = 0 := by ring
  rw [z]
  nlinarith

/-- C136: the boundary is the value of the least-squares line at ratio one; it is not computed if all ratios are equal. -/
theorem C136_boundary (theta ratio : Fin n → ℝ) (hn : 0 < n) :
    (∀ p, boundary theta ratio = some p → ∃ a b, (∀ a' b', sse ratio theta a b ≤ sse ratio theta a' b') ∧ p.1 = a + b * 1) ∧
    (boundary theta ratio = none ↔ ∀ i j, ratio i = ratio j) := by
  constructor
  · intro p hp
    unfold boundary at hp
    cases hl : linregress ratio theta with
    | none => rw [hl] at hp; cases hp
    | some l =>
      rw [hl] at hp
      cases hp
      exact ⟨l.intercept, l.slope, C136_least_squares theta ratio l hl, by rw [mul_one]⟩
  · have hR : (0 : ℝ) < n := by exact_mod_cast hn
    have h1 : boundary theta ratio = none ↔ cov ratio ratio = 0 := by
      unfold boundary
      rw [Option.map_eq_none_iff]
      unfold linregress
      dsimp only
      split_ifs <;> simp_all
    rw [h1, cov_self, div_eq_zero_iff, or_iff_left hR.ne']
    unfold sxx
    rw [sum_eq_zero_iff_of_nonneg fun i _ => sq_nonneg _]
    constructor
    · intro h i j
      have hi := h i (mem_univ i)
      have hj := h j (mem_univ j)
      have a := pow_eq_zero_iff (two_ne_zero) |>.1 hi
      have b := pow_eq_zero_iff (two_ne_zero) |>.1 hj
      linarith
    · intro h i _
      have : mean ratio = ratio i := by
        unfold mean
        rw [sum_congr rfl fun j _ => h j i, sum_const, card_univ, Fintype.card_fin, nsmul_eq_mul]
        field_simp
      rw [this]
      ring

/-- The weights by which the boundary depends on the angles. -/
noncomputable def weight (ratio : Fin n → ℝ) (i : Fin n) : ℝ := 1 / n + (1 - mean ratio) * (ratio i - mean ratio) / sxx ratio

theorem sum_dev_mul (x y : Fin n → ℝ) (hn : 0 < n) : ∑ i, (x i - mean x) * y i = n * cov x y := by
  have hR : (n : ℝ) ≠ 0 := by exact_mod_cast hn.ne'
  have : (n : ℝ) * cov x y = ∑ i, (x i - mean x) * (y i - mean y) := by unfold cov; field_simp
  rw [this]
  have e : ∀ i, (x i - mean x) * (y i - mean y) = (x i - mean x) * y i - mean y * (x i - mean x) := fun i => by ring
  rw [sum_congr rfl fun i _ => e i, sum_sub_distrib, ← mul_sum, sum_dev x hn]
  ring

/-- C136: the boundary is a weighted sum of the angles, with weights that depend on the ratios only. -/
theorem C136_weights (theta ratio : Fin n → ℝ) (p : ℝ × ℝ) (h : boundary theta ratio = some p) : p.1 = ∑ i, weight ratio i * theta i := by
  unfold boundary at h
  cases hl : linregress ratio theta with
  | none => rw [hl] at h; cases h
  | some l =>
    rw [hl] at h
    cases h
    obtain ⟨h0, hs, hi⟩ := linregress_eq hl
    have hn := npos_of_sxx h0
    have hR : (n : ℝ) ≠ 0 := by exact_mod_cast hn.ne'
    have hx : sxx ratio ≠ 0 := fun q => h0 (by rw [cov_self, q, zero_div])
    have e : ∀ i, weight ratio i * theta i = 1 / n * theta i + (1 - mean ratio) / sxx ratio * ((ratio i - mean ratio) * theta i) := by
      intro i; unfold weight; ring
    rw [sum_congr rfl fun i _ => e i, sum_add_distrib, ← mul_sum, ← mul_sum, sum_dev_mul _ _ hn]
    dsimp only
    rw [hs, hi, cov_self]
    unfold mean
    field_simp
    ring

theorem sum_weight_sq (ratio : Fin n → ℝ) (hn : 0 < n) (hx : sxx ratio ≠ 0) :
    ∑ i, weight ratio i ^ 2 = 1 / n + (1 - mean ratio) ^ 2 / sxx ratio := by
  have hR : (n : ℝ) ≠ 0 := by exact_mod_cast hn.ne'
  have e : ∀ i, weight ratio i ^ 2 = (1 / n) ^ 2 + 2 * (1 / n) * ((1 - mean ratio) / sxx ratio) * (ratio i - mean ratio) +
      ((1 - mean ratio) / sxx ratio) ^ 2 * (ratio i - mean ratio) ^ 2 := by
    intro i; unfold weight; ring
  rw [sum_congr rfl fun i _ => e i, sum_add_distrib, sum_add_distrib, ← mul_sum, ← mul_sum, sum_dev ratio hn, sum_const, card_univ,
    Fintype.card_fin, nsmul_eq_mul]
  have : ∑ i, (ratio i - mean ratio) ^ 2 = sxx ratio := rfl
  rw [this]
  field_simp
  ring

/-- The estimate of the variance of the angles: squared residuals of the line over the degrees of freedom. -/
noncomputable def resVar (theta ratio : Fin n → ℝ) (l : LinResult) : ℝ := sse ratio theta l.intercept l.slope / (n - 2 : ℝ)

/-- The squared uncertainty that is reported. -/
theorem reported_sq (theta ratio : Fin n → ℝ) (hn : 2 < n) (l : LinResult) (h : linregress ratio theta = some l) :
    l.stderr ^ 2 + l.interceptStderr ^ 2 = resVar theta ratio l * (1 / sxx ratio + (1 / n + mean ratio ^ 2 / sxx ratio)) ∧
    0 ≤ resVar theta ratio l := by
  obtain ⟨h0, hs, hi⟩ := linregress_eq h
  have hn0 : 0 < n := by omega
  have hR : (0 : ℝ) < n := by exact_mod_cast hn0
  have hR2 : (0 : ℝ) < (n : ℝ) - 2 := by
    have : (2 : ℝ) < n := by exact_mod_cast hn
    linarith
  have hxpos : 0 < sxx ratio := by
    refine lt_of_le_of_ne (sum_nonneg fun i _ => sq_nonneg _) fun q => h0 (by rw [cov_self, ← q, zero_div])
  have hsse : sse ratio theta l.intercept l.slope = sxx theta - (n * cov ratio theta) ^ 2 / sxx ratio := by
    rw [sse_eq _ _ hn0, hs, hi, cov_self]
    field_simp
    ring
  have hnonneg : 0 ≤ resVar theta ratio l := div_nonneg (sum_nonneg fun i _ => sq_nonneg _) hR2.le
  refine ⟨?_, hnonneg⟩
  have hvals : l.stderr ^ 2 = resVar theta ratio l / sxx ratio ∧
      l.interceptStderr ^ 2 = l.stderr ^ 2 * (cov ratio ratio + mean ratio ^ 2) := by
    unfold linregress at h
    dsimp only at h
    rw [if_neg h0, if_neg (by omega)] at h
    have hl := Option.some.inj h
    set r := if cov ratio ratio = 0 ∨ cov theta theta = 0 then 0 else cov ratio theta / √(cov ratio ratio * cov theta theta) with hr
    have hvar : (1 - r ^ 2) * cov theta theta / cov ratio ratio / (n - 2 : ℝ) = resVar theta ratio l / sxx ratio := by
      unfold resVar
      rw [hsse]
      have hcx : cov ratio ratio = sxx ratio / n := cov_self ratio
      have hcy : cov theta theta = sxx theta / n := cov_self theta
      by_cases hy : cov theta theta = 0
      · rw [hr, if_pos (Or.inr hy), hy]
        have hy0 : sxx theta = 0 := by
          rw [hcy, div_eq_zero_iff] at hy
          exact hy.resolve_right hR.ne'
        have hc0 : cov ratio theta = 0 := by
          unfold cov
          rw [div_eq_zero_iff]
          left
          refine sum_eq_zero fun i _ => ?_
          have := (sum_eq_zero_iff_of_nonneg fun i _ => sq_nonneg (theta i - mean theta)).1 hy0 i (mem_univ i)
          rw [pow_eq_zero_iff two_ne_zero |>.1 this, mul_zero]
        rw [hc0, hy0]
        simp
      · rw [hr, if_neg (by rw [not_or]; exact ⟨h0, hy⟩)]
        have hypos : 0 < sxx theta := by
          refine lt_of_le_of_ne (sum_nonneg fun i _ => sq_nonneg _) fun q => hy (by rw [hcy, ← q, zero_div])
        have hpos : 0 ≤ cov ratio ratio * cov theta theta := by
          rw [hcx, hcy]
          positivity
        rw [div_pow, Real.sq_sqrt hpos, hcx, hcy]
        field_simp
    have hvn : 0 ≤ (1 - r ^ 2) * cov theta theta / cov ratio ratio / (n - 2 : ℝ) := by
      rw [hvar]
      exact div_nonneg hnonneg hxpos.le
    have hcn : 0 ≤ cov ratio ratio + mean ratio ^ 2 := by
      rw [cov_self]
      positivity
    constructor
    · rw [← hvar]
      conv_lhs => rw [← hl]
      exact Real.sq_sqrt hvn
    · rw [← hl]
      show (_ * _) ^ 2 = _
      rw [mul_pow, Real.sq_sqrt hcn]
  rw [hvals.2, hvals.1, cov_self]
  field_simp

/-- C136, partial: if the points are on a line, the boundary is its value at one and the uncertainty is zero. -/
theorem C136_exact_partial (theta ratio : Fin n → ℝ) (hn : 2 < n) (a b : ℝ) (hl : ∀ i, theta i = a + b * ratio i) (p : ℝ × ℝ)
    (h : boundary theta ratio = some p) : p.1 = a + b ∧ p.2 = 0 := by
  have hn0 : 0 < n := by omega
  have hw := C136_weights theta ratio p h
  unfold boundary at h
  cases hr : linregress ratio theta with
  | none => rw [hr] at h; cases h
  | some l =>
    rw [hr] at h
    cases h
    obtain ⟨h0, hs, hi⟩ := linregress_eq hr
    have hR : (n : ℝ) ≠ 0 := by exact_mod_cast hn0.ne'
    have hx : sxx ratio ≠ 0 := fun q => h0 (by rw [cov_self, q, zero_div])
    have hm : mean theta = a + b * mean ratio := by
      unfold mean
      rw [sum_congr rfl fun i _ => hl i, sum_add_distrib, ← mul_sum, sum_const, card_univ, Fintype.card_fin, nsmul_eq_mul]
      field_simp
    have hc : cov ratio theta = b * cov ratio ratio := by
      unfold cov
      rw [← mul_div_assoc, mul_sum]
      congr 1
      refine sum_congr rfl fun i _ => ?_
      rw [hl i, hm]
      ring
    have hslope : l.slope = b := by rw [hs, hc]; field_simp
    have hint : l.intercept = a := by rw [hi, hc, hm]; field_simp; ring
    refine ⟨by dsimp only; rw [hint, hslope], ?_⟩
    have hz : sse ratio theta l.intercept l.slope = 0 := by
      unfold sse
      rw [hint, hslope]
      refine sum_eq_zero fun i _ => ?_
      rw [hl i]
      ring
    have := (reported_sq theta ratio hn l hr).1
    dsimp only
    rw [this]
    unfold resVar
    rw [hz]
    simp

/-- C136 is refuted for the uncertainty: the standard error of a weighted sum of uncorrelated angles of variance `s²` is `s` times the
root of the sum of the squared weights; the reported one leaves out the covariance of slope and intercept, so that its square is too large
by `2 x̄ s² / Sxx`. For positive ratios it is always too large unless the points are on a line. -/
theorem C136_uncertainty_wrong (theta ratio : Fin n → ℝ) (hn : 2 < n) (l : LinResult) (p : ℝ × ℝ) (hl : linregress ratio theta = some l)
    (h : boundary theta ratio = some p) :
    p.2 ^ 2 = resVar theta ratio l * (∑ i, weight ratio i ^ 2) + 2 * mean ratio * resVar theta ratio l / sxx ratio ∧
    ((∀ i, 0 < ratio i) → sse ratio theta l.intercept l.slope ≠ 0 → √(resVar theta ratio l * ∑ i, weight ratio i ^ 2) < p.2) := by
  have hn0 : 0 < n := by omega
  have hR : (0 : ℝ) < n := by exact_mod_cast hn0
  have hR2 : (0 : ℝ) < (n : ℝ) - 2 := by
    have : (2 : ℝ) < n := by exact_mod_cast hn
    linarith
  obtain ⟨h0, hs, hi⟩ := linregress_eq hl
  have hx : sxx ratio ≠ 0 := fun q => h0 (by rw [cov_self, q, zero_div])
  have hxpos : 0 < sxx ratio := lt_of_le_of_ne (sum_nonneg fun i _ => sq_nonneg _) (Ne.symm hx)
  obtain ⟨hrep, hnon⟩ := reported_sq theta ratio hn l hl
  unfold boundary at h
  rw [hl] at h
  cases h
  have hsq : √(l.stderr ^ 2 + l.interceptStderr ^ 2) ^ 2 = resVar theta ratio l * (∑ i, weight ratio i ^ 2) + 2 * mean ratio * resVar theta ratio l / sxx ratio := by
    rw [Real.sq_sqrt (by positivity), hrep, sum_weight_sq ratio hn0 hx]
    field_simp
    ring
  refine ⟨hsq, ?_⟩
  intro hpos hne
  have hv : 0 < resVar theta ratio l := by
    refine lt_of_le_of_ne hnon fun q => hne ?_
    unfold resVar at q
    rw [eq_comm, div_eq_zero_iff] at q
    exact q.resolve_right hR2.ne'
  have hm : 0 < mean ratio := by
    unfold mean
    refine div_pos (sum_pos (fun i _ => hpos i) ?_) hR
    exact ⟨⟨0, hn0⟩, mem_univ _⟩
  have hlt : resVar theta ratio l * ∑ i, weight ratio i ^ 2 < √(l.stderr ^ 2 + l.interceptStderr ^ 2) ^ 2 := by
    rw [hsq]
    have : 0 < 2 * mean ratio * resVar theta ratio l / sxx ratio := by positivity
    linarith
  refine (Real.sqrt_lt_sqrt (mul_nonneg hv.le (sum_nonneg fun i _ => sq_nonneg _)) hlt).trans_eq ?_
  exact Real.sqrt_sq (Real.sqrt_nonneg _)

theorem vec3 (a b c : ℝ) : ![a, b, c] 2 = c := rfl

/-- Three points that are not on a line. -/
example : ∃ l, linregress ![1, 2, (3 : ℝ)] ![0, 1, (0 : ℝ)] = some l ∧ l.slope = 0 ∧ l.intercept = 1 / 3 ∧
    sse ![1, 2, (3 : ℝ)] ![0, 1, (0 : ℝ)] l.intercept l.slope ≠ 0 := by
  have hx : cov ![1, 2, (3 : ℝ)] ![1, 2, (3 : ℝ)] = 2 / 3 := by
    norm_num [cov, mean, Fin.sum_univ_three, vec3]
  have hxy : cov ![1, 2, (3 : ℝ)] ![0, 1, (0 : ℝ)] = 0 := by
    norm_num [cov, mean, Fin.sum_univ_three, vec3]
  have hm : mean ![0, 1, (0 : ℝ)] = 1 / 3 := by norm_num [mean, Fin.sum_univ_three, vec3]
  cases h : linregress ![1, 2, (3 : ℝ)] ![0, 1, (0 : ℝ)] with
  | none =>
    unfold linregress at h
    dsimp only at h
    rw [hx, if_neg (by norm_num), if_neg (by norm_num)] at h
    cases h
  | some l =>
    obtain ⟨_, hs, hi⟩ := linregress_eq h
    rw [hxy, zero_div] at hs
    rw [hxy, hm, zero_div, zero_mul, sub_zero] at hi
    refine ⟨l, rfl, hs, hi, ?_⟩
    rw [hs, hi]
    norm_num [sse, Fin.sum_univ_three, vec3]

end Verif.Figs
