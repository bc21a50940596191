import Verif.NumInt.Lemmas
import Verif.NumInt.Parallel
import Verif.NumInt.Spec
import Mathlib.Analysis.SpecialFunctions.Integrals.Basic
import Mathlib.Algebra.Polynomial.Eval.Degree
/-! More helper lemmas for the numerical integrator. -/
namespace Verif.NumInt
open Finset Spec

/-! ### the global map -/

theorem mapperIndex_inv (m : Mapper) (s : String)
    (h : ∀ k, m.lookup k = none ∧ k ≠ "simpson" ∨ m.lookup k = some (if k = "simpson" then 1 else 0)) :
    ∀ k, (mapperIndex m s).2.lookup k = none ∧ k ≠ "simpson" ∨
      (mapperIndex m s).2.lookup k = some (if k = "simpson" then 1 else 0) := by
  intro k
  unfold mapperIndex
  cases hs : m.lookup s with
  | some v => exact h k
  | none =>
    have hne : s ≠ "simpson" := by
      rcases h s with h' | h'
      · exact h'.2
      · rw [hs] at h'; cases h'
    by_cases hk : k = s
    · subst hk; right; simp [List.lookup, hne]
    · have hb : (k == s) = false := by simpa using hk
      simpa only [List.lookup, hb] using h k

theorem mapperAfter_inv (hist : List String) :
    ∀ k, (mapperAfter hist).lookup k = none ∧ k ≠ "simpson" ∨
      (mapperAfter hist).lookup k = some (if k = "simpson" then 1 else 0) := by
  unfold mapperAfter
  suffices H : ∀ (m : Mapper), (∀ k, m.lookup k = none ∧ k ≠ "simpson" ∨
      m.lookup k = some (if k = "simpson" then 1 else 0)) →
      ∀ k, (hist.foldl (fun m s => (mapperIndex m s).2) m).lookup k = none ∧ k ≠ "simpson" ∨
      (hist.foldl (fun m s => (mapperIndex m s).2) m).lookup k =
        some (if k = "simpson" then 1 else 0) by
    apply H
    intro k
    by_cases h1 : k = "trapz"
    · subst h1; right; decide
    · by_cases h2 : k = "simpson"
      · subst h2; right; decide
      · left
        have b1 : (k == "trapz") = false := by simpa using h1
        have b2 : (k == "simpson") = false := by simpa using h2
        exact ⟨by simp [mapper0, List.lookup, b1, b2], h2⟩
  induction hist with
  | nil => intro m h; exact h
  | cons s l ih => intro m h; exact ih _ (mapperIndex_inv m s h)

theorem mapperIndex_after (hist : List String) (s : String) :
    (mapperIndex (mapperAfter hist) s).1 = if s = "simpson" then 1 else 0 := by
  unfold mapperIndex
  rcases mapperAfter_inv hist s with ⟨h, hn⟩ | h
  · rw [h]; simp [hn]
  · rw [h]

/-- The integrator object built by a call, whatever happened before. -/
def obj {α : Type} (s : String) (es : Bool) (f x : List α) (t : Int) (p : Bool) : Integrator α :=
  { paral := p, numthreads := t, arr_size := f.length, my_integrand := f, my_var := x,
    equally_spaced := es, integration_switch := if s = "simpson" then 1 else 0 }

section
variable {α : Type} [Add α] [Sub α] [Mul α] [Div α] [NatCast α]

theorem cni_eq (hist : List String) (s : String) (es : Bool) (f x : List α) (t : Int) (p : Bool) :
    (cniIntegrate (mapperAfter hist) s es f x t p).1 =
      if s = "simpson" then simpson (obj s es f x t p) else trapz (obj s es f x t p) := by
  unfold cniIntegrate mk integrate
  simp only [mapperIndex_after]
  by_cases h : s = "simpson"
  · simp [h, optTrapz, optSimpson, obj]
  · simp [h, optTrapz, obj]

theorem trapz_congr (o o' : Integrator α) (h1 : o.arr_size = o'.arr_size)
    (h2 : o.my_integrand = o'.my_integrand) (h3 : o.my_var = o'.my_var)
    (h4 : o.equally_spaced = o'.equally_spaced) : trapz o = trapz o' := by
  unfold trapz; rw [h1, h2, h3, h4]

theorem simpson_congr (o o' : Integrator α) (h1 : o.arr_size = o'.arr_size)
    (h2 : o.my_integrand = o'.my_integrand) (h3 : o.my_var = o'.my_var)
    (h4 : o.equally_spaced = o'.equally_spaced) : simpson o = simpson o' := by
  unfold simpson; rw [h1, h2, h3, h4, trapz_congr o o' h1 h2 h3 h4]

theorem simpson_fallback (o : Integrator α)
    (h : o.equally_spaced = false ∨ ∃ n : Nat, o.arr_size = n ∧ n % 2 = 0) :
    simpson o = trapz o := by
  unfold simpson
  rcases h with h | ⟨n, hn, he⟩
  · rw [h]; rfl
  · split
    · have : (o.arr_size - 1).tmod 2 ≠ 0 := by
        rw [hn]
        rcases Nat.eq_zero_or_pos n with rfl | hp
        · decide
        · have : ((n : Int) - 1) = ((n - 1 : Nat) : Int) := by omega
          rw [this, show (2 : Int) = ((2 : Nat) : Int) from rfl, Int.tmod_eq_emod_of_nonneg (by omega)]
          omega
      rw [if_pos this]
    · rfl

end

theorem trapz_tab_uneven {K : Type} [Field K] (s : String) (n : Nat) (x f : Nat → K) (t : Int)
    (p : Bool) : trapz (obj s false (tab n f) (tab n x) t p) = some (trapSum n x f) := by
  rw [trapz_uneven _ n x f rfl (by simp [obj]) (fun k hk => rd_tab _ _ _ hk) rfl]
  congr 1
  unfold trapSum
  apply sum_congr rfl
  intro i _
  ring

theorem trapz_tab_even {K : Type} [Field K] (s : String) (n : Nat) (hn : 2 ≤ n) (x f : Nat → K)
    (t : Int) (p : Bool) : trapz (obj s true (tab n f) (tab n x) t p) =
      some (((f 0 + f (n-1)) / 2 + ∑ k ∈ range (n - 2), f (k+1)) * (x 1 - x 0)) :=
  trapz_even _ n x f rfl (by simp [obj]) (by omega) (rd_tab n 0 x (by omega))
    (rd_tab n 1 x (by omega)) rfl

theorem simpson_tab {K : Type} [Field K] (s : String) (m : Nat) (hm : 1 ≤ m) (x f : Nat → K)
    (t : Int) (p : Bool) : simpson (obj s true (tab (2*m+1) f) (tab (2*m+1) x) t p) =
      some ((x 1 - x 0) / 3 *
      (f 0 + f (2*m) + ∑ k ∈ range (m - 1), (4 * f (2*k+1) + 2 * f (2*k+2)) + 4 * f (2*m-1))) :=
  simpson_odd _ m x f rfl (by simp [obj]) hm (rd_tab _ 0 x (by omega)) (rd_tab _ 1 x (by omega)) rfl

/-- On an equally spaced grid the trapezoid sum is the shortcut formula. -/
theorem trapSum_equi {K : Type} [Field K] [NeZero (2 : K)] (n : Nat) (hn : 2 ≤ n) (x f : Nat → K)
    (h : Equispaced n x) :
    trapSum n x f = ((f 0 + f (n-1)) / 2 + ∑ k ∈ range (n - 2), f (k+1)) * (x 1 - x 0) := by
  have h2 : (2 : K) ≠ 0 := NeZero.ne 2
  have hs : trapSum n x f = (∑ i ∈ range (n - 1), (f i + f (i + 1))) / 2 * (x 1 - x 0) := by
    unfold trapSum
    rw [sum_div, sum_mul]
    apply sum_congr rfl
    intro i hi
    rw [mem_range] at hi
    rw [h i (by omega)]; ring
  obtain ⟨m, rfl⟩ : ∃ m, n = m + 2 := ⟨n - 2, by omega⟩
  rw [hs]
  have e1 : m + 2 - 1 = m + 1 := rfl
  have e2 : m + 2 - 2 = m := rfl
  rw [e1, e2, sum_add_distrib, sum_range_succ', sum_range_succ (fun i => f (i+1))]
  field_simp
  ring

end Verif.NumInt
