import Verif.Fornberg.Lemmas
import Mathlib.Algebra.Order.Field.Rat
import Mathlib.Tactic.NormNum
/-!
# Properties C14–C16: Fornberg finite differences

`fdcoef cs (m+1) n x0 (tab n x) 0` are the weights for the `m`-th derivative at `x0` on the `n` nodes
`x 0 … x (n-1)` (`cs`: size of the caller's coefficient array, 20 in `grid_derivative`).
`gridDerivative order accuracy grid u` is the routine a Python user calls.  `none` = out-of-bounds access.
-/
namespace Verif.Fornberg
open Polynomial Finset
variable {K : Type} [Field K]

/-! ## C14 -/

/-- C14: up to the declared work-array sizes (20 nodes, order 7) the weights are exact on every
polynomial of degree < number of nodes, for distinct nodes in any order and any evaluation point. -/
theorem C14_weights_exact (cs m n : Nat) (hm : m ≤ 7) (hn1 : 1 ≤ n) (hn : n ≤ 20) (hcs : n ≤ cs)
    (x : Nat → K) (hx : ∀ i j, i < n → j < n → x i = x j → i = j) (x0 : K) :
    ∃ c : Nat → K, fdcoef cs (m+1) n x0 (tab n x) 0 = some (tab n c) ∧
      ∀ p : K[X], p.degree < n →
        ∑ v ∈ range n, c v * p.eval (x v) = (derivative^[m] p).eval x0 := by
  refine ⟨_, fdcoef_eq x x0 n (tab n x) 0 (fun k hk => by rw [zero_add]; exact rd_tab n k x hk)
    cs (m+1) n (by omega) (by omega) hn1 hn hcs le_rfl, ?_⟩
  intro p hp
  obtain ⟨k, rfl⟩ : ∃ k, n = k + 1 := ⟨n - 1, by omega⟩
  have : p.degree ≤ (k : Nat) := by
    have h2 : p.degree < ((k+1 : Nat) : WithBot Nat) := hp
    rw [degree_le_iff_coeff_zero]
    intro j hj
    exact (degree_lt_iff_coeff_zero _ _).1 h2 j (by
      have : k < j := by exact_mod_cast hj
      omega)
  simpa using D_exact x x0 (k+1) k m hx (by omega) p this

theorem fdcoef_none_n (cs mord nord : Nat) (x0 : K) (grid : List K) (off : Int) (h : 21 ≤ nord) :
    fdcoef cs mord nord x0 grid off = none := by
  unfold fdcoef
  have hb : ∀ st : W K × K, stepNn grid off x0 (min nord mord) st 21 = none := by
    intro st
    unfold stepNn
    have : (List.range' 1 (21 - 1)).foldlM (stepNu grid off x0 (min nord mord) 21) (st.1, (1 : K)) = none := by
      apply foldlM_none _ _ _ 1 (by rw [List.mem_range'_1]; omega)
      intro a
      unfold stepNu
      have hw : ∀ v, wrW a.1 1 21 1 v = none := by
        intro v
        rw [wrW, if_neg]
        rw [inW_iff]; omega
      cases rd grid (off + ((21 : Nat) : Int) - 1) with
      | none => rfl
      | some g1 =>
        cases rd grid (off + ((1 : Nat) : Int) - 1) with
        | none => rfl
        | some g2 =>
          simp only [Option.bind_eq_bind, Option.bind_some]
          cases rdW a.1 1 (21 - 1) 1 with
          | none => rfl
          | some b => simp only [Option.bind_some, hw, Option.bind_none]
    rw [this]; rfl
  have hf : ∀ s : W K × K, (List.range' 2 (nord - 1)).foldlM (stepNn grid off x0 (min nord mord)) s = none := by
    intro s
    exact foldlM_none _ _ _ 21 (by rw [List.mem_range'_1]; omega) hb
  cases wrW (fun _ _ _ => (0 : K)) 1 1 1 1 with
  | none => rfl
  | some w => simp only [Option.bind_eq_bind, Option.bind_some, hf, Option.bind_none]

theorem fdcoef_none_m (cs mord nord : Nat) (x0 : K) (grid : List K) (off : Int) (h : 9 ≤ mord)
    (hn : 1 ≤ nord) : fdcoef cs mord nord x0 grid off = none := by
  unfold fdcoef
  cases wrW (fun _ _ _ => (0 : K)) 1 1 1 1 with
  | none => rfl
  | some w =>
    simp only [Option.bind_eq_bind, Option.bind_some]
    cases (List.range' 2 (nord - 1)).foldlM (stepNn grid off x0 (min nord mord)) (w, (1 : K)) with
    | none => rfl
    | some st =>
      simp only [Option.bind_some]
      obtain ⟨k, rfl⟩ : ∃ k, nord = k + 1 := ⟨nord - 1, by omega⟩
      rw [List.range'_succ, List.mapM_cons]
      have : rdW st.1 mord (k+1) 1 = none := by
        rw [rdW, if_neg]; rw [inW_iff]; omega
      rw [this]; rfl

/-- C14: outside those sizes the routine indexes its work array out of bounds. -/
theorem C14_sizes_needed (cs m n : Nat) (hn1 : 1 ≤ n) (x : Nat → K) (x0 : K) (h : 20 < n ∨ 7 < m) :
    fdcoef cs (m+1) n x0 (tab n x) 0 = none := by
  rcases h with h | h
  · exact fdcoef_none_n _ _ _ _ _ _ (by omega)
  · exact fdcoef_none_m _ _ _ _ _ _ (by omega) hn1

/-- Non-vacuity of C14: three distinct, unordered nodes. -/
example : ∀ i j, i < 3 → j < 3 → ([2, 0, 5] : List ℚ).getD i 0 = ([2, 0, 5] : List ℚ).getD j 0 → i = j := by
  intro i j hi hj
  have h1 : i = 0 ∨ i = 1 ∨ i = 2 := by omega
  have h2 : j = 0 ∨ j = 1 ∨ j = 2 := by omega
  rcases h1 with rfl | rfl | rfl <;> rcases h2 with rfl | rfl | rfl <;> norm_num

/-! ## The grid derivative in closed form -/

theorem forUp_inv {σ : Type} (P : Int → σ → Prop) (body : Int → σ → Option σ) (lo hi : Int) (s : σ)
    (hle : lo ≤ hi) (h0 : P lo s)
    (hs : ∀ i s, lo ≤ i → i < hi → P i s → ∃ s', body i s = some s' ∧ P (i+1) s') :
    ∃ s', forUp lo hi s body = some s' ∧ P hi s' := by
  unfold forUp
  obtain ⟨n, hn⟩ : ∃ n : Nat, hi = lo + n := ⟨(hi - lo).toNat, by omega⟩
  subst hn
  have : (lo + (n : Int) - lo).toNat = n := by omega
  rw [this]
  have gen : ∀ k : Nat, k ≤ n → ∃ s', (List.range k).foldlM
      (fun a (j : Nat) => body (lo + (j : Int)) a) s = some s' ∧ P (lo + k) s' := by
    intro k
    induction k with
    | zero => intro _; exact ⟨s, rfl, by simpa using h0⟩
    | succ k ih =>
      intro hk
      obtain ⟨s1, e1, p1⟩ := ih (by omega)
      obtain ⟨s2, e2, p2⟩ := hs (lo + k) s1 (by omega) (by omega) p1
      refine ⟨s2, ?_, ?_⟩
      · rw [List.range_succ, List.foldlM_append, e1]
        simp only [Option.bind_eq_bind, Option.bind_some, List.foldlM_cons, List.foldlM_nil]
        rw [e2]; rfl
      · have : lo + ((k+1 : Nat) : Int) = lo + k + 1 := by push_cast; omega
        rw [this]; exact p2
  exact gen n le_rfl

/-- Number of points treated with the left boundary stencil. -/
def imidOf (acc : Nat) : Nat := if acc % 2 = 0 then acc / 2 else acc / 2 + 1
/-- Number of points treated with the right boundary stencil. -/
def jendOf (acc : Nat) : Nat := acc / 2
/-- First (0-based) grid index of the stencil used for point `k` (0-based). -/
def stencilStart (acc ng k : Nat) : Nat :=
  if k < imidOf acc then 0 else if k < ng - jendOf acc then k - imidOf acc else ng - 1 - acc

theorem stencil_ok (acc ng k : Nat) (hng : acc + 1 ≤ ng) (hk : k < ng) :
    stencilStart acc ng k ≤ k ∧ k ≤ stencilStart acc ng k + acc ∧
      stencilStart acc ng k + acc < ng := by
  unfold stencilStart imidOf jendOf
  split <;> split <;> (try split) <;> omega

/-- value assigned at point k -/
noncomputable def val (iorder acc ng : Nat) (x u : Nat → K) (k : Nat) : K :=
  ∑ v ∈ range (acc+1), D (fun j => x (stencilStart acc ng k + j)) (x k) iorder acc v *
    u (stencilStart acc ng k + v)

theorem rd_tab' {α : Type} (n : Nat) (f : Nat → α) (i : Int) (k : Nat) (hi : i = k) (hk : k < n) :
    rd (tab n f) i = some (f k) := by
  subst hi; exact rd_tab n k f hk

theorem dot_eq (n ng s : Nat) (c u : Nat → K) (h : s + n ≤ ng) :
    dotProduct (tab n c) (tab ng u) ((s : Int) + 1) n = some (∑ v ∈ range n, c v * u (s + v)) := by
  unfold dotProduct rd1
  rw [foldlM_some _ _ (fun acc k => acc + c k * u (s + k))]
  · rw [foldl_add_sum, zero_add]
  · intro k hk a
    rw [List.mem_range] at hk
    rw [rd_tab n k c hk, rd_tab' ng u _ (s + k) (by push_cast; omega) (by omega)]
    rfl

theorem assign_eq (iorder acc ng : Nat) (ho : iorder ≤ 7) (hacc : acc ≤ 19) (x u : Nat → K)
    (k s : Nat) (hk : k < ng) (hs : s + acc < ng) (du : List K) (hdu : du.length = ng) (i si : Int)
    (hi : i = k + 1) (hsi : si = s + 1) :
    assign (iorder+1) (acc+1) (tab ng x) (tab ng u) i si du =
      some (du.set k (∑ v ∈ range (acc+1), D (fun j => x (s + j)) (x k) iorder acc v * u (s + v))) := by
  subst hi; subst hsi
  unfold assign
  have r1 : rd1 (tab ng x) ((k : Int) + 1) = some (x k) := rd_tab' _ _ _ k (by omega) hk
  rw [r1]
  simp only [Option.bind_eq_bind, Option.bind_some]
  rw [fdcoef_eq (fun j => x (s + j)) (x k) (acc+1) (tab ng x) ((s : Int) + 1 - 1)
    (fun j hj => rd_tab' _ _ _ (s + j) (by push_cast; omega) (by omega))
    iaccuracy_max (iorder+1) (acc+1) (by omega) (by omega) (by omega) (by omega)
    (by unfold iaccuracy_max; omega) le_rfl]
  simp only [Option.bind_some, Nat.add_sub_cancel]
  rw [dot_eq _ _ _ _ _ (by omega)]
  simp only [Option.bind_some, wr]
  have e1 : ((k : Int) + 1 - 1).toNat = k := by omega
  have e2 : ¬ ((k : Int) + 1 - 1 < 0) := by omega
  rw [if_neg e2, e1, hdu, if_pos hk]

theorem set_tab (ng i : Nat) (f : Nat → K) (hi : i < ng) :
    (tab ng (fun k => if k < i then f k else 0)).set i (f i) =
      tab ng (fun k => if k < i + 1 then f k else 0) := by
  apply List.ext_getElem (by simp)
  intro j h1 h2
  simp only [List.length_set, length_tab] at h1
  rw [List.getElem_set]
  by_cases e : i = j
  · subst e; simp [tab]
  · have : (j ≤ i) ↔ j < i := by omega
    simp [tab, e, this]

theorem gridDerivative_eq (iorder acc ng : Nat) (ho : iorder ≤ 7) (hacc : acc ≤ 19)
    (hng : acc + 1 ≤ ng) (x u : Nat → K) :
    gridDerivative iorder acc (tab ng x) (tab ng u) =
      some (.ok (tab ng (val iorder acc ng x u))) := by
  unfold gridDerivative
  rw [if_neg (by unfold iaccuracy_max; omega)]
  simp only [length_tab]
  have himid : (if acc % 2 = 0 then acc / 2 else acc / 2 + 1) = imidOf acc := rfl
  rw [himid]
  have hjend : (if acc % 2 = 0 then imidOf acc else acc / 2) = jendOf acc := by
    unfold imidOf jendOf; split <;> rfl
  rw [hjend]
  have hsum : imidOf acc + jendOf acc = acc := by
    unfold imidOf jendOf; split <;> omega
  set P : Int → List K → Prop := fun i du =>
    du = tab ng (fun k => if k < (i - 1).toNat then val iorder acc ng x u k else 0) with hP
  have step : ∀ (i si : Int) (du : List K), 1 ≤ i → i ≤ ng →
      si = (stencilStart acc ng (i-1).toNat : Int) + 1 → P i du →
      ∃ s', assign (iorder+1) (acc+1) (tab ng x) (tab ng u) i si du = some s' ∧ P (i+1) s' := by
    intro i si du h1 h2 hsi hp
    have hk : (i - 1).toNat < ng := by omega
    have hst := stencil_ok acc ng (i-1).toNat hng hk
    refine ⟨_, assign_eq iorder acc ng ho hacc x u (i-1).toNat
      (stencilStart acc ng (i-1).toNat) hk hst.2.2 du (by rw [hp]; simp) i si (by omega) hsi, ?_⟩
    rw [hp]
    have := set_tab ng (i-1).toNat (val iorder acc ng x u) hk
    have e : (i + 1 - 1).toNat = (i-1).toNat + 1 := by omega
    simp only [hP, e]
    exact this
  obtain ⟨d1, e1, p1⟩ := forUp_inv P (fun i du => assign (iorder+1) (acc+1) (tab ng x) (tab ng u) i 1 du)
    1 ((imidOf acc : Int) + 1) (List.replicate ng (0 : K)) (by omega) (by
      simp only [hP]
      simp [tab]) (by
      intro i s h1 h2 hp
      apply step i 1 s h1 (by omega) _ hp
      have : stencilStart acc ng (i-1).toNat = 0 := by
        unfold stencilStart; rw [if_pos (by omega)]
      rw [this]; rfl)
  obtain ⟨d2, e2, p2⟩ := forUp_inv P (fun i du => assign (iorder+1) (acc+1) (tab ng x) (tab ng u) i
      (i - (imidOf acc : Int)) du)
    ((imidOf acc : Int) + 1) ((ng : Int) - jendOf acc + 1) d1 (by omega) p1 (by
      intro i s h1 h2 hp
      apply step i _ s (by omega) (by omega) _ hp
      have : stencilStart acc ng (i-1).toNat = (i-1).toNat - imidOf acc := by
        unfold stencilStart; rw [if_neg (by omega), if_pos (by omega)]
      rw [this]; omega)
  obtain ⟨d3, e3, p3⟩ := forUp_inv P (fun i du => assign (iorder+1) (acc+1) (tab ng x) (tab ng u) i
      ((ng : Int) - acc) du)
    ((ng : Int) - jendOf acc + 1) ((ng : Int) + 1) d2 (by omega) p2 (by
      intro i s h1 h2 hp
      apply step i _ s (by omega) (by omega) _ hp
      have : stencilStart acc ng (i-1).toNat = ng - 1 - acc := by
        unfold stencilStart; rw [if_neg (by omega), if_neg (by omega)]
      rw [this]; omega)
  rw [e1]
  simp only [Option.bind_eq_bind, Option.bind_some]
  rw [e2]
  simp only [Option.bind_some]
  rw [e3]
  simp only [Option.bind_some, Option.pure_def]
  congr 2
  rw [p3]
  apply List.ext_getElem (by simp)
  intro j h1 h2
  simp only [length_tab] at h1
  simp [tab, h1]

/-! ## C15 -/

/-- C15: for orders ≤ 7 and accuracies ≤ 19 on a grid of distinct points with more points than the
accuracy, the derivative of every polynomial of degree ≤ accuracy is exact at every grid point. -/
theorem C15_grid_derivative_exact (iorder acc ng : Nat) (ho : iorder ≤ 7) (hacc : acc ≤ 19)
    (hng : acc + 1 ≤ ng) (x : Nat → K) (hx : ∀ i j, i < ng → j < ng → x i = x j → i = j)
    (p : K[X]) (hp : p.degree ≤ acc) :
    gridDerivative iorder acc (tab ng x) (tab ng (fun k => p.eval (x k))) =
      some (.ok (tab ng (fun k => (derivative^[iorder] p).eval (x k)))) := by
  rw [gridDerivative_eq iorder acc ng ho hacc hng]
  congr 2
  apply List.map_congr_left
  intro k hk
  rw [List.mem_range] at hk
  have hst := stencil_ok acc ng k hng hk
  unfold val
  exact D_exact (fun j => x (stencilStart acc ng k + j)) (x k) (acc+1) acc iorder (by
    intro i j hi hj e
    have := hx _ _ (by omega) (by omega) e
    omega) (by omega) p hp

/-- C15 at the requested accuracy 20, which the guard accepts: never a result. -/
theorem C15_accuracy_20_fails (iorder : Nat) (grid u : List K) :
    gridDerivative iorder 20 grid u = none := by
  unfold gridDerivative
  rw [if_neg (by unfold iaccuracy_max; omega)]
  simp only
  rw [forUp_none _ _ _ _ 1 le_rfl (by decide)]
  · rfl
  · intro a
    unfold assign
    cases rd1 grid 1 with
    | none => rfl
    | some x0 =>
      simp only [Option.bind_eq_bind, Option.bind_some]
      rw [fdcoef_none_n _ _ _ _ _ _ (by omega)]
      rfl

/-- Non-vacuity of C15: four points, accuracy 2, second derivative, a quadratic. -/
example : (2 : Nat) ≤ 7 ∧ 2 ≤ 19 ∧ 2 + 1 ≤ 4 ∧ ((X ^ 2 : ℚ[X])).degree ≤ (2 : Nat) ∧
    (∀ i j, i < 4 → j < 4 → (fun k : Nat => (k : ℚ)^2) i = (fun k : Nat => (k : ℚ)^2) j → i = j) := by
  refine ⟨by omega, by omega, by omega, by simp, ?_⟩
  intro i j _ _ h
  have : ((i : ℚ))^2 = (j : ℚ)^2 := h
  have h2 : (i : Nat)^2 = j^2 := by exact_mod_cast this
  exact Nat.pow_left_injective (by norm_num) h2

/-! ## C16 -/

/-- C16: the exact condition for freedom from out-of-bounds accesses. -/
theorem C16_safe_iff (iorder acc : Nat) (grid u : List K) (hu : u.length = grid.length) :
    (gridDerivative iorder acc grid u).isSome = true ↔
      20 < acc ∨ (acc ≤ 19 ∧ iorder ≤ 7 ∧ acc + 1 ≤ grid.length) ∨ (acc = 0 ∧ grid = []) := by
  constructor
  · intro h
    by_contra hc
    push Not at hc
    obtain ⟨h20, h1, h2⟩ := hc
    have hnone : gridDerivative iorder acc grid u = none := by
      by_cases e20 : acc = 20
      · subst e20; exact C15_accuracy_20_fails iorder grid u
      · unfold gridDerivative
        rw [if_neg (by unfold iaccuracy_max; omega)]
        simp only
        have bad : ∀ (i s : Int) (du : List K), (s = 1) →
            assign (iorder+1) (acc+1) grid u i s du = none := by
          rintro i s du rfl
          unfold assign
          cases rd1 grid i with
          | none => rfl
          | some x0 =>
            simp only [Option.bind_eq_bind, Option.bind_some]
            by_cases h8 : iorder ≤ 7
            · have hlen := h1 (by omega) h8
              cases fdcoef iaccuracy_max (iorder+1) (acc+1) x0 grid (1 - 1) with
              | none => rfl
              | some c =>
                simp only [Option.bind_some]
                have : dotProduct c u 1 (acc+1) = none := by
                  unfold dotProduct
                  apply foldlM_none _ _ _ grid.length (by rw [List.mem_range]; omega)
                  intro a
                  have : rd1 u (1 + (grid.length : Int)) = none := (rd_none _ _).2 (by omega)
                  rw [this]
                  cases rd c (grid.length : Int) <;> rfl
                rw [this]; rfl
            · rw [fdcoef_none_m _ _ _ _ _ _ (by omega) (by omega)]; rfl
        by_cases ha : acc = 0
        · subst ha
          have hg : 1 ≤ grid.length := by
            rcases Nat.eq_zero_or_pos grid.length with h | h
            · exact absurd (List.length_eq_zero_iff.1 h) (h2 rfl)
            · exact h
          rw [forUp_empty _ _ _ _ (by decide)]
          simp only [Option.bind_eq_bind, Option.bind_some]
          rw [forUp_none _ _ _ _ 1 (by decide) (by simp; omega)]
          · rfl
          · intro a; exact bad _ _ _ (by simp)
        · rw [forUp_none _ _ _ _ 1 le_rfl (by split <;> omega)]
          · rfl
          · intro a; exact bad _ _ _ rfl
    rw [hnone] at h
    simp at h
  · rintro (h | ⟨h1, h2, h3⟩ | ⟨rfl, rfl⟩)
    · unfold gridDerivative
      rw [if_pos (by unfold iaccuracy_max; omega)]; rfl
    · rw [tab_surj grid 0, tab_surj u 0, hu, gridDerivative_eq iorder acc grid.length h2 h1 h3]; rfl
    · rfl

/-- C16 is FALSE as stated: accuracy 20 passes the guard but always leaves the work array. -/
theorem C16_guard_too_weak : ¬ (20 > iaccuracy_max) ∧
    ∀ (iorder : Nat) (grid u : List K), gridDerivative iorder 20 grid u = none :=
  ⟨by unfold iaccuracy_max; omega, fun o g u => C15_accuracy_20_fails o g u⟩

/-- C16 partial: for accuracies ≤ 19, orders ≤ 7 and long enough grids, every point's stencil is
`accuracy+1` consecutive grid points inside the grid containing the point, and the result at the point is the
weighted sum of `u` over that stencil.  Missing: accuracy 20, orders ≥ 8 and short grids, which the
guard accepts although they are out of bounds (`C16_safe_iff`). -/
theorem C16_stencil_partial (iorder acc ng : Nat) (ho : iorder ≤ 7) (hacc : acc ≤ 19)
    (hng : acc + 1 ≤ ng) (x u : Nat → K) :
    ∃ (s : Nat → Nat) (c : Nat → Nat → K) (du : Nat → K),
      gridDerivative iorder acc (tab ng x) (tab ng u) = some (.ok (tab ng du)) ∧
      ∀ k, k < ng → s k ≤ k ∧ k ≤ s k + acc ∧ s k + acc < ng ∧
        fdcoef 20 (iorder+1) (acc+1) (x k) (tab ng x) (s k) = some (tab (acc+1) (c k)) ∧
        du k = ∑ v ∈ range (acc+1), c k v * u (s k + v) := by
  refine ⟨stencilStart acc ng, fun k v => D (fun j => x (stencilStart acc ng k + j)) (x k) iorder acc v,
    _, gridDerivative_eq iorder acc ng ho hacc hng x u, ?_⟩
  intro k hk
  have hst := stencil_ok acc ng k hng hk
  refine ⟨hst.1, hst.2.1, hst.2.2, ?_, rfl⟩
  rw [fdcoef_eq (fun j => x (stencilStart acc ng k + j)) (x k) (acc+1) (tab ng x) _
    (fun j hj => rd_tab' _ _ _ (stencilStart acc ng k + j) (by push_cast; omega) (by omega))
    20 (iorder+1) (acc+1) (by omega) (by omega) (by omega) (by omega) (by omega) le_rfl]
  simp

/-- Non-vacuity of C16: a safe and an unsafe call. -/
example : (gridDerivative 1 2 [(0 : ℚ), 1, 3] [0, 1, 9]).isSome = true ∧
    (gridDerivative 1 3 [(0 : ℚ), 1, 3] [0, 1, 9]).isSome = false := by
  have hs := C16_safe_iff 1 2 [(0 : ℚ), 1, 3] [0, 1, 9] (by simp)
  have hu := C16_safe_iff 1 3 [(0 : ℚ), 1, 3] [0, 1, 9] (by simp)
  generalize gridDerivative 1 2 [(0 : ℚ), 1, 3] [0, 1, 9] = r1 at *
  generalize gridDerivative 1 3 [(0 : ℚ), 1, 3] [0, 1, 9] = r2 at *
  refine ⟨hs.2 (by simp), ?_⟩
  rw [Bool.eq_false_iff]
  intro h
  have := hu.1 h
  simp at this

end Verif.Fornberg
