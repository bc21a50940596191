import Verif.Round.Sums
import Verif.Round.Double
import Verif.Round.Claims
/-!
# C137: rounding errors of the integrator
-/
namespace Verif.Round
open Verif.NumInt Verif.NumInt.Spec Spec Finset

variable {R : Rnd}

/-- The numbers. -/
def vals (f : ℕ → FP R) : ℕ → ℝ := fun i => (f i).val

/-! ### The rules as sums -/

theorem sum_pairs (f : ℕ → ℝ) (n : ℕ) (hn : 2 ≤ n) :
    ∑ i ∈ range (n - 1), (f i + f (i + 1)) / 2 = (f 0 + f (n - 1)) / 2 + ∑ k ∈ range (n - 2), f (k + 1) := by
  obtain ⟨m, rfl⟩ : ∃ m, n = m + 2 := ⟨n - 2, by omega⟩
  show ∑ i ∈ range (m + 1), _ = (f 0 + f (m + 1)) / 2 + ∑ k ∈ range m, f (k + 1)
  induction m with
  | zero => simp
  | succ m ih =>
    rw [sum_range_succ, ih (by omega), sum_range_succ _ m]
    ring

theorem sum_panels (f : ℕ → ℝ) (m : ℕ) (hm : 1 ≤ m) :
    ∑ j ∈ range m, (f (2 * j) + 4 * f (2 * j + 1) + f (2 * j + 2)) =
      f 0 + f (2 * m) + ∑ k ∈ range (m - 1), (4 * f (2 * k + 1) + 2 * f (2 * k + 2)) + 4 * f (2 * m - 1) := by
  obtain ⟨p, rfl⟩ : ∃ p, m = p + 1 := ⟨m - 1, by omega⟩
  show _ = _ + ∑ k ∈ range p, _ + 4 * f (2 * p + 1)
  induction p with
  | zero => simp; ring
  | succ p ih =>
    rw [sum_range_succ, ih (by omega), sum_range_succ _ p]
    simp only [Nat.mul_add, Nat.mul_one]
    ring_nf

/-! ### The trapezoid rule -/

theorem trapz_err_uneven (s : String) (n : ℕ) (x f : ℕ → FP R) (t : ℤ) (p : Bool) :
    ∃ r, trapz (obj s false (tab n f) (tab n x) t p) = some r ∧
      Err R (n + 3) r.val (trapSum n (vals x) (vals f)) (trapSize n (vals x) (vals f)) := by
  unfold trapz obj
  simp only [Bool.false_eq_true, if_false, length_tab]
  have h0 : Err R 4 (((0 : ℕ) : FP R)).val 0 0 := by simpa using (Err.nat (R := R) 0).mono (Nat.zero_le 4)
  obtain ⟨r, hr, er⟩ := err_forUp (R := R) (K := 4) (m := 4) 1 n ((0 : ℕ) : FP R)
    (fun k => (f (k + 1) + f k) / ((2 : ℕ) : FP R) * (x (k + 1) - x k))
    (fun k => ((f (k + 1)).val + (f k).val) / (2 : ℕ) * ((x (k + 1)).val - (x k).val))
    (fun k => |(f (k + 1)).val + (f k).val| / (2 : ℕ) * |(x (k + 1)).val - (x k).val|)
    (by
      intro k _
      exact ((Err.sum2 (f (k + 1)) (f k)).divNat 2).mul (Err.diff (x (k + 1)) (x k)))
    le_rfl h0
  refine ⟨r, hr _ ?_, ?_⟩
  · intro k hk a
    have h1 : (1 + (k : Int)) = ((k + 1 : ℕ) : Int) := by push_cast; ring
    have h2 : (1 + (k : Int)) - 1 = ((k : ℕ) : Int) := by ring
    rw [h2, h1, rd_tab _ _ _ (by omega), rd_tab _ _ _ (by omega), rd_tab _ _ _ (by omega), rd_tab _ _ _ (by omega)]
    rfl
  have hn : ((n : ℤ) - 1).toNat = n - 1 := by omega
  rw [hn, zero_add, zero_add] at er
  have e1 : ∑ k ∈ range (n - 1), ((f (k + 1)).val + (f k).val) / ((2 : ℕ) : ℝ) * ((x (k + 1)).val - (x k).val) =
      trapSum n (vals x) (vals f) := by
    unfold trapSum vals
    refine sum_congr rfl fun i _ => ?_
    push_cast
    ring
  have e2 : ∑ k ∈ range (n - 1), |(f (k + 1)).val + (f k).val| / ((2 : ℕ) : ℝ) * |(x (k + 1)).val - (x k).val| =
      trapSize n (vals x) (vals f) := by
    unfold trapSize vals
    refine sum_congr rfl fun i _ => ?_
    rw [add_comm (f (i + 1)).val]
    push_cast
    ring
  rw [e1, e2] at er
  rcases Nat.eq_zero_or_pos n with rfl | hp
  · have h0 : trapSize 0 (vals x) (vals f) = 0 := by simp [trapSize]
    have h := er
    rw [h0] at h ⊢
    exact ⟨by simpa using h.1, h.2⟩
  · exact er.mono (by omega)

/-- The first spacing. -/
def spacing (x : ℕ → FP R) : ℝ := (x 1).val - (x 0).val

theorem trapz_err_even' (s : String) (n : ℕ) (hn : 2 ≤ n) (x f : ℕ → FP R) (t : ℤ) (p : Bool) {K : ℕ} {y Y : ℕ → ℝ}
    (hy : ∀ i < n, Err R K (f i).val (y i) (Y i)) :
    ∃ r, trapz (obj s true (tab n f) (tab n x) t p) = some r ∧
      Err R (K + n + 2) r.val (trapEven n (spacing x) y) (trapEven n |spacing x| Y) := by
  unfold trapz obj
  have r0 : rd (tab n f) 0 = some (f 0) := rd_tab n 0 f (by omega)
  have rn : rd (tab n f) ((n : Int) - 1) = some (f (n-1)) := by
    rw [show (n : Int) - 1 = ((n - 1 : ℕ) : Int) by omega, rd_tab _ _ _ (by omega)]
  have x0 : rd (tab n x) 0 = some (x 0) := rd_tab n 0 x (by omega)
  have x1 : rd (tab n x) 1 = some (x 1) := rd_tab n 1 x (by omega)
  simp only [if_true, length_tab, r0, rn, x0, x1, Option.bind_eq_bind, Option.bind_some]
  have hi : Err R (K + 2) ((f 0 + f (n - 1)) / ((2 : ℕ) : FP R)).val ((y 0 + y (n - 1)) / (2 : ℕ)) ((Y 0 + Y (n - 1)) / (2 : ℕ)) :=
    ((hy 0 (by omega)).add (hy (n - 1) (by omega))).divNat 2
  obtain ⟨r, hr, er⟩ := err_forUp (R := R) (K := K) (m := K + 2) 1 ((n : ℤ) - 1) ((f 0 + f (n - 1)) / ((2 : ℕ) : FP R))
    (fun k => f (k + 1)) (fun k => y (k + 1)) (fun k => Y (k + 1))
    (fun k hk => hy (k + 1) (by omega)) (by omega) hi
  rw [hr _ (by
      intro k hk a
      rw [show 1 + (k : Int) = ((k + 1 : ℕ) : Int) by push_cast; ring, rd_tab _ _ _ (by omega)]
      rfl)]
  refine ⟨r * (x 1 - x 0), rfl, ?_⟩
  have hk : ((n : ℤ) - 1 - 1).toNat = n - 2 := by omega
  rw [hk] at er
  have := er.mul (Err.diff (x 1) (x 0))
  have e : K + 2 + (n - 2) + 1 + 1 = K + n + 2 := by omega
  rw [e] at this
  have e1 : ∀ (g : ℕ → ℝ) (h : ℝ), ((g 0 + g (n - 1)) / ((2 : ℕ) : ℝ) + ∑ k ∈ range (n - 2), g (k + 1)) * h = trapEven n h g := by
    intro g h
    unfold trapEven
    rw [show ((2 : ℕ) : ℝ) = 2 by norm_num, ← sum_pairs g n hn, sum_mul]
    exact sum_congr rfl fun i _ => by ring
  rw [e1 y, e1 Y] at this
  exact this

theorem trapz_err_even (s : String) (n : ℕ) (hn : 2 ≤ n) (x f : ℕ → FP R) (t : ℤ) (p : Bool) :
    ∃ r, trapz (obj s true (tab n f) (tab n x) t p) = some r ∧
      Err R (n + 2) r.val (trapEven n (spacing x) (vals f)) (trapEven n |spacing x| (fun i => |vals f i|)) := by
  have := trapz_err_even' (R := R) s n hn x f t p (K := 0) (y := vals f) (Y := fun i => |vals f i|) fun i _ => Err.exact _
  rwa [zero_add] at this

/-! ### Simpson's rule -/

theorem simpson_err' (s : String) (m : ℕ) (hm : 1 ≤ m) (x f : ℕ → FP R) (t : ℤ) (p : Bool) {K : ℕ} {y Y : ℕ → ℝ}
    (hy : ∀ i < 2 * m + 1, Err R K (f i).val (y i) (Y i)) :
    ∃ r, simpson (obj s true (tab (2 * m + 1) f) (tab (2 * m + 1) x) t p) = some r ∧
      Err R (K + m + 5) r.val (simpsonSum m (spacing x) y) (simpsonSum m |spacing x| Y) := by
  unfold simpson obj
  have e1 : (((2*m+1 : ℕ) : Int) - 1) = ((2 * m : ℕ) : Int) := by omega
  have hmod : ((2 * m : ℕ) : Int).tmod 2 = 0 := by
    rw [Int.tmod_eq_emod_of_nonneg (by omega)]; omega
  have hdiv : ((2 * m + 1 : ℕ) : Int).tdiv 2 = m := by
    rw [Int.tdiv_eq_ediv_of_nonneg (by omega)]; omega
  have e2 : (((2 * m : ℕ) : Int) - 1) = ((2 * m - 1 : ℕ) : Int) := by omega
  have r0 : rd (tab (2*m+1) f) 0 = some (f 0) := rd_tab _ 0 f (by omega)
  have r1 : rd (tab (2*m+1) f) ((2*m : ℕ) : Int) = some (f (2*m)) := rd_tab _ _ f (by omega)
  have r2 : rd (tab (2*m+1) f) ((2*m-1 : ℕ) : Int) = some (f (2*m-1)) := rd_tab _ _ f (by omega)
  have x0 : rd (tab (2*m+1) x) 0 = some (x 0) := rd_tab _ 0 x (by omega)
  have x1 : rd (tab (2*m+1) x) 1 = some (x 1) := rd_tab _ 1 x (by omega)
  simp only [length_tab, if_true, e1, hmod, ne_eq, not_true_eq_false, if_false, e2, r0, r1, r2,
    x0, x1, hdiv, Option.bind_eq_bind, Option.bind_some]
  have hi : Err R (K + 2) (f 0 + f (2 * m)).val (y 0 + y (2 * m)) (Y 0 + Y (2 * m)) :=
    ((hy 0 (by omega)).add (hy (2 * m) (by omega))).mono (by omega)
  have hc : ∀ (c : ℕ), ∀ i < 2 * m + 1, Err R (K + 1) (((c : ℕ) : FP R) * f i).val (c * y i) (c * Y i) := fun c i hi => by
    have := (Err.nat c).mul (hy i hi)
    rwa [zero_add] at this
  obtain ⟨r, hr, er⟩ := err_forUp (R := R) (K := K + 2) (m := K + 2) 1 (m : ℤ) (f 0 + f (2 * m))
    (fun k => ((4 : ℕ) : FP R) * f (2 * k + 1) + ((2 : ℕ) : FP R) * f (2 * k + 2))
    (fun k => (4 : ℕ) * y (2 * k + 1) + (2 : ℕ) * y (2 * k + 2))
    (fun k => (4 : ℕ) * Y (2 * k + 1) + (2 : ℕ) * Y (2 * k + 2))
    (fun k hk => (hc 4 _ (by omega)).add (hc 2 _ (by omega))) le_rfl hi
  rw [hr _ (by
      intro k hk a
      have a1 : 2 * (1 + (k : Int)) - 1 = ((2 * k + 1 : ℕ) : Int) := by push_cast; ring
      have a2 : 2 * (1 + (k : Int)) = ((2 * k + 2 : ℕ) : Int) := by push_cast; ring
      rw [a1, a2, rd_tab _ _ _ (by omega), rd_tab _ _ _ (by omega)]
      rfl)]
  refine ⟨_, rfl, ?_⟩
  have hk : ((m : ℤ) - 1).toNat = m - 1 := by omega
  rw [hk] at er
  have := ((Err.diff (x 1) (x 0)).divNat 3).mul (er.add ((hc 4 (2 * m - 1) (by omega)).mono (by omega)))
  have e : 1 + 1 + (K + 2 + (m - 1) + 1) + 1 = K + m + 5 := by omega
  rw [e] at this
  have e1 : ∀ (g : ℕ → ℝ) (h : ℝ), h / ((3 : ℕ) : ℝ) * (g 0 + g (2 * m) + ∑ k ∈ range (m - 1),
      ((4 : ℕ) * g (2 * k + 1) + (2 : ℕ) * g (2 * k + 2)) + (4 : ℕ) * g (2 * m - 1)) = simpsonSum m h g := by
    intro g h
    unfold simpsonSum
    push_cast
    rw [← sum_panels g m hm, mul_sum]
  rw [e1 y, e1 Y] at this
  exact this

theorem simpson_err (s : String) (m : ℕ) (hm : 1 ≤ m) (x f : ℕ → FP R) (t : ℤ) (p : Bool) :
    ∃ r, simpson (obj s true (tab (2 * m + 1) f) (tab (2 * m + 1) x) t p) = some r ∧
      Err R (m + 5) r.val (simpsonSum m (spacing x) (vals f)) (simpsonSum m |spacing x| (fun i => |vals f i|)) := by
  have := simpson_err' (R := R) s m hm x f t p (K := 0) (y := vals f) (Y := fun i => |vals f i|) fun i _ => Err.exact _
  rwa [zero_add] at this

/-! ### The claims -/

/-- C137: rounding error of the trapezoid rule on any grid. -/
theorem C137_trapz (hist : List String) (n : ℕ) (x f : ℕ → FP R) (t : ℤ) (p : Bool) :
    ∃ r, (cniIntegrate (mapperAfter hist) "trapz" false (tab n f) (tab n x) t p).1 = some r ∧
      |r.val - trapSum n (vals x) (vals f)| ≤ ((1 + R.u) ^ (n + 3) - 1) * trapSize n (vals x) (vals f) := by
  rw [cni_eq, if_neg (by decide)]
  obtain ⟨r, hr, er⟩ := trapz_err_uneven (R := R) "trapz" n x f t p
  exact ⟨r, hr, er.1⟩

/-- C137: for a non-negative integrand on an increasing grid the relative error is at most `(1 + u)^(n+3) - 1`, and the result is not
negative (unless that bound exceeds one). -/
theorem C137_relative (hist : List String) (n : ℕ) (x f : ℕ → FP R) (t : ℤ) (p : Bool)
    (hx : ∀ i, i + 1 < n → (x i).val ≤ (x (i + 1)).val) (hf : ∀ i < n, 0 ≤ (f i).val) :
    ∃ r, (cniIntegrate (mapperAfter hist) "trapz" false (tab n f) (tab n x) t p).1 = some r ∧
      |r.val - trapSum n (vals x) (vals f)| ≤ ((1 + R.u) ^ (n + 3) - 1) * trapSum n (vals x) (vals f) ∧
      ((1 + R.u) ^ (n + 3) ≤ 2 → 0 ≤ r.val) := by
  obtain ⟨r, hr, er⟩ := C137_trapz hist n x f t p
  refine ⟨r, hr, ?_⟩
  have hT : 0 ≤ trapSize n (vals x) (vals f) := by
    unfold trapSize
    exact sum_nonneg fun i _ => by positivity
  have : trapSize n (vals x) (vals f) = trapSum n (vals x) (vals f) := by
    unfold trapSize trapSum
    refine sum_congr rfl fun i hi => ?_
    rw [mem_range] at hi
    have h1 := hx i (by omega)
    have h2 := hf i (by omega)
    have h3 := hf (i + 1) (by omega)
    unfold vals
    rw [abs_of_nonneg (by linarith), abs_of_nonneg (by linarith)]
  rw [this] at er hT
  refine ⟨er, fun h2 => ?_⟩
  have h3 := (abs_le.1 er).1
  nlinarith

/-- C137: `double` numbers and up to a million samples: nine correct digits. -/
theorem C137_double (hist : List String) (n : ℕ) (hn : n ≤ 1000000) (x f : ℕ → FP double) (t : ℤ) (p : Bool)
    (hx : ∀ i, i + 1 < n → (x i).val ≤ (x (i + 1)).val) (hf : ∀ i < n, 0 ≤ (f i).val) :
    ∃ r, (cniIntegrate (mapperAfter hist) "trapz" false (tab n f) (tab n x) t p).1 = some r ∧
      |r.val - trapSum n (vals x) (vals f)| ≤ 1 / 10 ^ 9 * trapSum n (vals x) (vals f) := by
  obtain ⟨r, hr, er, _⟩ := C137_relative hist n x f t p hx hf
  refine ⟨r, hr, er.trans (mul_le_mul_of_nonneg_right ?_ ?_)⟩
  · have := gam_double (R := double) rfl (k := n + 3) (by omega)
    unfold gam at this
    exact this.trans (by norm_num)
  · unfold trapSum vals
    refine sum_nonneg fun i hi => ?_
    rw [mem_range] at hi
    have h1 := hx i (by omega)
    have h2 := hf i (by omega)
    have h3 := hf (i + 1) (by omega)
    exact div_nonneg (mul_nonneg (by linarith) (by linarith)) (by norm_num)

/-- C137: equal spacing: the trapezoid rule with the first spacing. -/
theorem C137_even (hist : List String) (n : ℕ) (hn : 2 ≤ n) (x f : ℕ → FP R) (t : ℤ) (p : Bool) :
    ∃ r, (cniIntegrate (mapperAfter hist) "trapz" true (tab n f) (tab n x) t p).1 = some r ∧
      |r.val - trapEven n (spacing x) (vals f)| ≤
        ((1 + R.u) ^ (n + 2) - 1) * trapEven n |spacing x| (fun i => |vals f i|) := by
  rw [cni_eq, if_neg (by decide)]
  obtain ⟨r, hr, er⟩ := trapz_err_even (R := R) "trapz" n hn x f t p
  exact ⟨r, hr, er.1⟩

/-- C137: Simpson's rule. -/
theorem C137_simpson (hist : List String) (m : ℕ) (hm : 1 ≤ m) (x f : ℕ → FP R) (t : ℤ) (p : Bool) :
    ∃ r, (cniIntegrate (mapperAfter hist) "simpson" true (tab (2 * m + 1) f) (tab (2 * m + 1) x) t p).1 = some r ∧
      |r.val - simpsonSum m (spacing x) (vals f)| ≤
        ((1 + R.u) ^ (m + 5) - 1) * simpsonSum m |spacing x| (fun i => |vals f i|) := by
  rw [cni_eq, if_pos rfl]
  obtain ⟨r, hr, er⟩ := simpson_err (R := R) "simpson" m hm x f t p
  exact ⟨r, hr, er.1⟩

/-! ### Threads -/

/-- C137: the parallel trapezoid rule (equal spacing), for every distribution of the iterations over the threads and every order. -/
theorem C137_trapz_parallel (s : String) (n : ℕ) (hn : 2 ≤ n) (x f : ℕ → FP R) (t : ℤ) (p : Bool) (sched : List (List ℕ)) (L : ℕ)
    (hs : IsSchedule sched 1 (n - 1)) (hL : ∀ its ∈ sched, its.length ≤ L) :
    ∃ r, trapzParallelEven (obj s true (tab n f) (tab n x) t p) sched = some r ∧
      |r.val - trapEven n (spacing x) (vals f)| ≤
        ((1 + R.u) ^ (L + sched.length + 4) - 1) * trapEven n |spacing x| (fun i => |vals f i|) := by
  unfold trapzParallelEven obj
  have r0 : rd (tab n f) 0 = some (f 0) := rd_tab n 0 f (by omega)
  have rn : rd (tab n f) ((n : Int) - 1) = some (f (n-1)) := by
    rw [show (n : Int) - 1 = ((n - 1 : ℕ) : Int) by omega, rd_tab _ _ _ (by omega)]
  have x0 : rd (tab n x) 0 = some (x 0) := rd_tab n 0 x (by omega)
  have x1 : rd (tab n x) 1 = some (x 1) := rd_tab n 1 x (by omega)
  simp only [length_tab, r0, rn, x0, x1, Option.bind_eq_bind, Option.bind_some]
  have hi : Err R 2 ((f 0 + f (n - 1)) / ((2 : ℕ) : FP R)).val (((f 0).val + (f (n - 1)).val) / (2 : ℕ))
      ((|(f 0).val| + |(f (n - 1)).val|) / (2 : ℕ)) :=
    ((Err.exact (f 0).val).add (Err.exact (f (n - 1)).val)).divNat 2
  obtain ⟨r, hr, er⟩ := err_reduction (R := R) (K := 0) (L := L) (fun i => rd (tab n f) i) f (fun k => (f k).val)
    (fun k => |(f k).val|) sched hL (fun i hi => rd_tab _ _ _ (by have := sched_mem hs hi; omega)) (fun i _ => Err.exact _)
    (m := 2 + L) (by omega) (hi.mono (by omega))
  rw [hr]
  refine ⟨r * (x 1 - x 0), rfl, ?_⟩
  rw [sched_sum hs, sched_sum hs, show n - 1 - 1 = n - 2 by omega] at er
  have := er.mul (Err.diff (x 1) (x 0))
  have e : 2 + L + sched.length + 1 + 1 = L + sched.length + 4 := by omega
  rw [e] at this
  have e1 : ∀ (g : ℕ → ℝ) (h : ℝ), ((g 0 + g (n - 1)) / ((2 : ℕ) : ℝ) + ∑ k ∈ range (n - 2), g (1 + k)) * h = trapEven n h g := by
    intro g h
    unfold trapEven
    have hc : ∑ k ∈ range (n - 2), g (1 + k) = ∑ k ∈ range (n - 2), g (k + 1) := sum_congr rfl fun i _ => by rw [add_comm]
    rw [hc, show ((2 : ℕ) : ℝ) = 2 by norm_num, ← sum_pairs g n hn, sum_mul]
    exact sum_congr rfl fun i _ => by ring
  have e2 := e1 (vals f) (spacing x)
  have e3 := e1 (fun i => |vals f i|) |spacing x|
  unfold vals spacing at e2 e3
  unfold vals spacing
  rw [← e2, ← e3]
  exact this.1

/-- C137: the parallel Simpson rule likewise. -/
theorem C137_simpson_parallel (s : String) (m : ℕ) (hm : 1 ≤ m) (x f : ℕ → FP R) (t : ℤ) (p : Bool) (sched : List (List ℕ)) (L : ℕ)
    (hs : IsSchedule sched 1 m) (hL : ∀ its ∈ sched, its.length ≤ L) :
    ∃ r, simpsonParallel (obj s true (tab (2 * m + 1) f) (tab (2 * m + 1) x) t p) sched = some r ∧
      |r.val - simpsonSum m (spacing x) (vals f)| ≤
        ((1 + R.u) ^ (L + sched.length + 6) - 1) * simpsonSum m |spacing x| (fun i => |vals f i|) := by
  unfold simpsonParallel obj
  have e1 : (((2*m+1 : ℕ) : Int) - 1) = ((2 * m : ℕ) : Int) := by omega
  have hmod : ((2 * m : ℕ) : Int).tmod 2 = 0 := by
    rw [Int.tmod_eq_emod_of_nonneg (by omega)]; omega
  have e2 : (((2 * m : ℕ) : Int) - 1) = ((2 * m - 1 : ℕ) : Int) := by omega
  have r0 : rd (tab (2*m+1) f) 0 = some (f 0) := rd_tab _ 0 f (by omega)
  have r1 : rd (tab (2*m+1) f) ((2*m : ℕ) : Int) = some (f (2*m)) := rd_tab _ _ f (by omega)
  have r2 : rd (tab (2*m+1) f) ((2*m-1 : ℕ) : Int) = some (f (2*m-1)) := rd_tab _ _ f (by omega)
  have x0 : rd (tab (2*m+1) x) 0 = some (x 0) := rd_tab _ 0 x (by omega)
  have x1 : rd (tab (2*m+1) x) 1 = some (x 1) := rd_tab _ 1 x (by omega)
  simp only [length_tab, if_true, e1, hmod, ne_eq, not_true_eq_false, if_false, e2, r0, r1, r2,
    x0, x1, Option.bind_eq_bind, Option.bind_some]
  have hi : Err R 1 (f 0 + f (2 * m)).val ((f 0).val + (f (2 * m)).val) (|(f 0).val| + |(f (2 * m)).val|) :=
    (Err.exact (f 0).val).add (Err.exact (f (2 * m)).val)
  have h4 : ∀ g : FP R, Err R 1 (((4 : ℕ) : FP R) * g).val ((4 : ℕ) * g.val) ((4 : ℕ) * |g.val|) := fun g =>
    (Err.nat 4).mul (Err.exact g.val)
  have h2 : ∀ g : FP R, Err R 1 (((2 : ℕ) : FP R) * g).val ((2 : ℕ) * g.val) ((2 : ℕ) * |g.val|) := fun g =>
    (Err.nat 2).mul (Err.exact g.val)
  obtain ⟨r, hr, er⟩ := err_reduction (R := R) (K := 2) (L := L)
    (fun i => (rd (tab (2 * m + 1) f) (2 * (i : Int) - 1)).bind fun a => (rd (tab (2 * m + 1) f) (2 * (i : Int))).bind fun b =>
      pure (((4 : ℕ) : FP R) * a + ((2 : ℕ) : FP R) * b))
    (fun i => ((4 : ℕ) : FP R) * f (2 * i - 1) + ((2 : ℕ) : FP R) * f (2 * i))
    (fun i => (4 : ℕ) * (f (2 * i - 1)).val + (2 : ℕ) * (f (2 * i)).val)
    (fun i => (4 : ℕ) * |(f (2 * i - 1)).val| + (2 : ℕ) * |(f (2 * i)).val|) sched hL
    (by
      intro i hi
      have := sched_mem hs hi
      have a1 : 2 * (i : Int) - 1 = ((2 * i - 1 : ℕ) : Int) := by omega
      have a2 : 2 * (i : Int) = ((2 * i : ℕ) : Int) := by omega
      rw [a1, a2, rd_tab _ _ _ (by omega), rd_tab _ _ _ (by omega)]
      rfl)
    (fun i _ => (h4 _).add (h2 _)) (m := 2 + L) (by omega) (hi.mono (by omega))
  rw [hr]
  refine ⟨_, rfl, ?_⟩
  rw [sched_sum hs, sched_sum hs] at er
  have := ((Err.diff (x 1) (x 0)).divNat 3).mul (er.add ((h4 (f (2 * m - 1))).mono (by omega)))
  have e : 1 + 1 + (2 + L + sched.length + 1) + 1 = L + sched.length + 6 := by omega
  rw [e] at this
  have e1 : ∀ (g : ℕ → ℝ) (h : ℝ), h / ((3 : ℕ) : ℝ) * (g 0 + g (2 * m) + ∑ k ∈ range (m - 1),
      ((4 : ℕ) * g (2 * (1 + k) - 1) + (2 : ℕ) * g (2 * (1 + k))) + (4 : ℕ) * g (2 * m - 1)) = simpsonSum m h g := by
    intro g h
    have hc : ∑ k ∈ range (m - 1), ((4 : ℕ) * g (2 * (1 + k) - 1) + (2 : ℕ) * g (2 * (1 + k))) =
        ∑ k ∈ range (m - 1), (4 * g (2 * k + 1) + 2 * g (2 * k + 2)) := by
      refine sum_congr rfl fun k _ => ?_
      rw [show 2 * (1 + k) - 1 = 2 * k + 1 by omega, show 2 * (1 + k) = 2 * k + 2 by omega]
      push_cast
      ring
    unfold simpsonSum
    rw [hc]
    push_cast
    rw [← sum_panels g m hm, mul_sum]
  have e2 := e1 (vals f) (spacing x)
  have e3 := e1 (fun i => |vals f i|) |spacing x|
  unfold vals spacing at e2 e3
  unfold vals spacing
  rw [← e2, ← e3]
  exact this.1

/-- C137: so two executions on different numbers of threads differ by at most the sum of two such bounds. -/
theorem C137_two_runs (s : String) (n : ℕ) (hn : 2 ≤ n) (x f : ℕ → FP R) (t : ℤ) (p : Bool) (sched : List (List ℕ))
    (hs : IsSchedule sched 1 (n - 1)) (hT : sched.length ≤ n) :
    ∃ r q, trapzParallelEven (obj s true (tab n f) (tab n x) t p) sched = some r ∧
      trapz (obj s true (tab n f) (tab n x) t p) = some q ∧
      |r.val - q.val| ≤ 2 * ((1 + R.u) ^ (2 * n + 4) - 1) * trapEven n |spacing x| (fun i => |vals f i|) := by
  have hL : ∀ its ∈ sched, its.length ≤ n := by
    intro its hi
    have h1 := (List.sublist_flatten_of_mem hi).length_le
    have h2 := hs.length_eq
    rw [List.length_range'] at h2
    omega
  obtain ⟨r, hr, er⟩ := C137_trapz_parallel s n hn x f t p sched n hs hL
  obtain ⟨q, hq, eq⟩ := trapz_err_even (R := R) s n hn x f t p
  refine ⟨r, q, hr, hq, ?_⟩
  have hA := eq.size_nonneg
  have g1 := mul_le_mul_of_nonneg_right (gam_mono (R := R) (show n + sched.length + 4 ≤ 2 * n + 4 by omega)) hA
  have g2 := mul_le_mul_of_nonneg_right (gam_mono (R := R) (show n + 2 ≤ 2 * n + 4 by omega)) hA
  have e1 := er.trans g1
  have e2 := eq.1.trans g2
  unfold gam at e1 e2
  rw [abs_sub_comm] at e2
  have := abs_sub_le r.val (trapEven n (spacing x) (vals f)) q.val
  linarith

/-- Non-vacuity: numbers, a schedule of two threads. -/
example : IsSchedule [[2], [1, 3]] 1 (5 - 1) ∧ (∀ its ∈ [[2], [1, 3]], its.length ≤ 2) ∧ 2 ≤ 5 := by
  refine ⟨?_, by decide, by norm_num⟩
  show List.Perm _ _
  decide

end Verif.Round
