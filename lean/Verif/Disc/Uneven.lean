import Verif.Disc.Props
import Mathlib.Tactic.FieldSimp
import Mathlib.Tactic.Positivity
import Mathlib.Tactic.Linarith
/-!
# C10: every grid that is not equally spaced

The equal-spacing flag is hard-wired in `disc_integrals.cpp`; for each increasing grid of visible samples that is not equally
spaced there is a profile whose first integral is not the trapezoid sum.
-/
namespace Verif.Disc
open Verif Finset Spec Verif.NumInt.Spec

/-- The two rules weigh the first sample alike. -/
theorem uneven_witness {K : Type} [Field K] [NeZero (2 : K)] (n : Nat) (hn : 2 ≤ n) (x : Nat → K) (hx : ¬ Equispaced n x) :
    ∃ g : Nat → K, g 0 = 0 ∧ ((g 0 + g (n - 1)) / 2 + ∑ k ∈ range (n - 2), g (k + 1)) * (x 1 - x 0) ≠ trapSum n x g := by
  obtain ⟨g, hg⟩ := NumInt.C02_shortcut_only_equispaced [] n hn x hx 1 false
  rw [NumInt.C01_trapz_sum, NumInt.cni_eq, if_neg (by decide), NumInt.trapz_tab_even _ n hn] at hg
  refine ⟨fun i => if i = 0 then 0 else g i, by simp, ?_⟩
  intro h
  apply hg
  congr 1
  obtain ⟨m, rfl⟩ : ∃ m, n = m + 2 := ⟨n - 2, by omega⟩
  unfold trapSum at h ⊢
  simp only [Nat.add_sub_cancel, show m + 2 - 1 = m + 1 by omega] at h ⊢
  rw [sum_range_succ'] at h ⊢
  simp at h ⊢
  have h2 : (2 : K) ≠ 0 := NeZero.ne 2
  linear_combination h

/-- **C10 (refutation).** On every increasing grid of visible samples that is not equally spaced the first integral of some
profile is not the trapezoid sum. -/
theorem C10_every_uneven_grid_wrong {K : Type} [Field K] [LinearOrder K] [IsStrictOrderedRing K]
    (ldHist niHist : List String) (o : Orders) (lds ints : String) (hints : ints ≠ "simpson") (threads : Int) (paral : Bool)
    (n : Nat) (hn : 2 ≤ n) (ho : Orders.Valid o n) (mu : Nat → K) (hmu : ∀ i, i < n → 0 ≤ mu i ∧ mu i ≤ 1)
    (hinc : ∀ i j, i < j → j < n → mu i < mu j) (hne : ¬ Equispaced n mu) :
    ∃ (f : Nat → K) (r : K × K),
      call ldHist niHist o (tab n fun i => (mu i, f i, 0, 0)) lds ints threads paral = some r ∧
      r.1 ≠ trapSum n mu (fun i => mu i * f i * (1 + 3 / 2 * mu i)) := by
  obtain ⟨g, g0, hg⟩ := uneven_witness n hn mu hne
  have hpos : ∀ i, 0 < i → i < n → mu i * (1 + 3 / 2 * mu i) ≠ 0 := by
    intro i h0 hi
    have h1 := hinc 0 i h0 hi
    have h2 := (hmu 0 (by omega)).1
    have h3 : 0 < mu i := by linarith
    positivity
  let f : Nat → K := fun i => if i = 0 then 0 else g i / (mu i * (1 + 3 / 2 * mu i))
  have hf : ∀ i, i < n → mu i * f i * (1 + 3 / 2 * mu i) = g i := by
    intro i hi
    by_cases h : i = 0
    · subst h; simp [f, g0]
    · simp only [f, h, if_false]
      have := hpos i (by omega) hi
      rw [mul_right_comm, mul_comm, div_mul_cancel₀ _ this]
  have hvis : visible (tab n fun i => (mu i, f i, (0 : K), (0 : K))) = tab n fun i => (mu i, f i, (0 : K), (0 : K)) := by
    unfold visible
    apply List.filter_eq_self.2
    intro s hs
    simp only [tab, List.mem_map, List.mem_range] at hs
    obtain ⟨i, hi, rfl⟩ := hs
    have := hmu i hi
    simpa using this
  have hm : ∀ h : Sample K → K, (tab n (fun i => (mu i, f i, (0 : K), (0 : K)))).map h = tab n (fun i => h (mu i, f i, 0, 0)) := by
    intro h; simp [tab, Function.comp_def]
  have hc := call_eq ldHist niHist o (tab n fun i => (mu i, f i, (0 : K), (0 : K))) lds ints threads paral (by rw [hvis]; simpa using ho)
  rw [hvis, hm, hm, hm, NumInt.cni_eq, NumInt.cni_eq, if_neg hints, if_neg hints,
    NumInt.trapz_tab_even _ n hn, NumInt.trapz_tab_even _ n hn] at hc
  refine ⟨f, _, hc, ?_⟩
  have hfirst : ∀ i, i < n → firstAt (mu i, f i, (0 : K), (0 : K)) = g i := by
    intro i hi
    rw [← hf i hi]
    simp [firstAt, Ld.law]
  have e1 : trapSum n mu (fun i => mu i * f i * (1 + 3 / 2 * mu i)) = trapSum n mu g := by
    unfold trapSum
    apply sum_congr rfl
    intro i hi
    have hi := mem_range.1 hi
    simp only []
    rw [hf i (by omega), hf (i + 1) (by omega)]
  rw [e1]
  show (_ / 2 + _) * _ ≠ _
  rw [hfirst 0 (by omega), hfirst (n - 1) (by omega), sum_congr rfl fun k hk => hfirst (k + 1) (by have := mem_range.1 hk; omega)]
  exact hg

/-- Non-vacuity. -/
example : (∀ i j, i < j → j < 3 → (fun i => if i = 0 then (0 : ℚ) else if i = 1 then 1 / 4 else 1) i <
    (fun i => if i = 0 then (0 : ℚ) else if i = 1 then 1 / 4 else 1) j) ∧
    ¬ Equispaced 3 (fun i => if i = 0 then (0 : ℚ) else if i = 1 then 1 / 4 else 1) := by
  constructor
  · intro i j h1 h2
    have : (i = 0 ∧ j = 1) ∨ (i = 0 ∧ j = 2) ∨ (i = 1 ∧ j = 2) := by omega
    rcases this with ⟨rfl, rfl⟩ | ⟨rfl, rfl⟩ | ⟨rfl, rfl⟩ <;> norm_num
  · intro h
    have := h 1 (by omega)
    norm_num at this

end Verif.Disc
