import Verif.NumDeriv.Props
import Mathlib.Data.Finset.Card
import Mathlib.Data.List.NodupEquivFin
/-! # C89 for complex arrays, C91: interpolation before differentiation -/
namespace Verif.NumDeriv
noncomputable section
open Classical

/-- A quadratic function with complex coefficients and its derivative. -/
def cquad (A B C : ℂ) (t : ℝ) : ℂ := A + B * t + C * (t : ℂ) ^ 2
/-- Its derivative. -/
def cquad' (B C : ℂ) (t : ℝ) : ℂ := B + 2 * C * t

theorem cquad_re (A B C : ℂ) (t : ℝ) : (cquad A B C t).re = quad A.re B.re C.re t := by
  simp [cquad, quad, pow_two]
theorem cquad_im (A B C : ℂ) (t : ℝ) : (cquad A B C t).im = quad A.im B.im C.im t := by
  simp [cquad, quad, pow_two]

/-- **C89, partial.** Derivatives of complex profiles: exact on quadratic functions with complex coefficients when
complex values are wanted; otherwise the derivative of the real part.  Missing: this is for calls that switch the
message off; see `C89_complex_message_wrong`. -/
theorem C89_complex_partial (x : List ℝ) (hx : x.Pairwise (· < ·)) (h3 : 3 ≤ x.length) (A B C : ℂ) :
    computeDer false true defaultGradient 1 x (.complex (x.map (cquad A B C))) =
      some [some (.complex (x.map (cquad A B C))), some (.complex (x.map (cquad' B C)))] ∧
    computeDer false false defaultGradient 1 x (.complex (x.map (cquad A B C))) =
      some [some (.real (x.map fun t => (cquad A B C t).re)), some (.real (x.map fun t => (cquad' B C t).re))] := by
  have er : (x.map (cquad A B C)).map Complex.re = x.map (quad A.re B.re C.re) := by
    simp only [List.map_map]; exact List.map_congr_left fun t _ => cquad_re A B C t
  have ei : (x.map (cquad A B C)).map Complex.im = x.map (quad A.im B.im C.im) := by
    simp only [List.map_map]; exact List.map_congr_left fun t _ => cquad_im A B C t
  have hzip : ∀ f g : ℝ → ℝ, ((x.map f).zip (x.map g)).map (fun q => (⟨q.1, q.2⟩ : ℂ)) = x.map fun t => ⟨f t, g t⟩ := by
    intro f g
    rw [List.zip_map', List.map_map]; rfl
  simp only [computeDer, er, ei, C89_gradient_exact x hx h3]
  constructor
  · simp only [Option.bind_eq_bind, Option.bind_some, if_true, List.zip_cons_cons, List.zip_nil_left, List.mapM_cons,
      List.mapM_nil, hzip]
    simp only [Option.pure_def, Option.bind_some, Bool.false_eq_true, if_false, Option.some.injEq, List.cons.injEq,
      and_true, Profile.complex.injEq]
    constructor
    · refine List.map_congr_left fun t _ => Complex.ext ?_ ?_
      · exact (cquad_re A B C t).symm
      · exact (cquad_im A B C t).symm
    · refine List.map_congr_left fun t _ => Complex.ext ?_ ?_ <;> simp [cquad', quad']
  · simp only [Option.bind_eq_bind, Option.bind_some, Bool.false_eq_true, if_false, List.map_cons, List.map_nil,
      Option.map_some, Option.some.injEq, List.cons.injEq, and_true, Profile.real.injEq]
    constructor
    · exact List.map_congr_left fun t _ => by simp [cquad_re]
    · exact List.map_congr_left fun t _ => by simp [cquad', quad']

/-- **C89.** Real profiles: exact on quadratic functions, with or without message. -/
theorem C89_real_profile (print useComplex : Bool) (x : List ℝ) (hx : x.Pairwise (· < ·)) (h3 : 3 ≤ x.length)
    (a b c : ℝ) :
    computeDer print useComplex defaultGradient 1 x (.real (x.map (quad a b c))) =
      some [some (.real (x.map (quad a b c))), some (.real (x.map (quad' b c)))] := by
  simp [computeDer, C89_gradient_exact x hx h3]

/-- **C89, refuted for complex profiles in the pipeline.** With the message on, as it is by default and in all callers,
no complex profile is differentiated, whatever the method, the grid, the profile and `use_complex`; so the numerical
radial gradients of a set of modes with a complex function fail. -/
theorem C89_complex_message_wrong (useComplex : Bool) (m : Method) (x : List ℝ) :
    (∀ (ord : ℕ) (y : List ℂ), computeDer true useComplex m ord x (.complex y) = none) ∧
    ∀ (modes : List (Profile × Profile)) (y : List ℂ),
      (∃ p ∈ modes, p.1 = .complex y ∨ p.2 = .complex y) → radialGradients useComplex m x modes = none := by
  have h1 : ∀ (ord : ℕ) (y : List ℂ), computeDer true useComplex m ord x (.complex y) = none := by
    intro ord y
    simp only [computeDer, Option.bind_eq_bind, if_true]
    cases differentiate m ord none x (y.map Complex.re) with
    | none => rfl
    | some re =>
      simp only [Option.bind_some]
      cases useComplex with
      | false => rfl
      | true =>
        simp only [if_true]
        cases differentiate m ord none x (y.map Complex.im) with
        | none => rfl
        | some im => simp only [Option.bind_some]; exact Option.bind_fun_none _
  refine ⟨h1, ?_⟩
  rintro modes y ⟨p, hp, hy⟩
  unfold radialGradients
  induction modes with
  | nil => simp at hp
  | cons q t ih =>
    rw [List.mapM_cons]
    rcases List.mem_cons.1 hp with rfl | hp
    · rcases hy with hy | hy
      · simp [hy, h1]
      · rw [hy, h1]
        cases computeDer true useComplex m 1 x p.1 <;> rfl
    · have := ih hp
      rw [this]
      simp

/-- Hypotheses met: two modes, the second with a complex function, on a grid of three points. -/
example : ∃ p ∈ [(Profile.real [1, 2, 4], Profile.real [0, 1, 3]), (Profile.real [1, 0, 2], Profile.complex [1, Complex.I, 2])],
    p.1 = .complex [1, Complex.I, 2] ∨ p.2 = .complex [1, Complex.I, 2] :=
  ⟨_, List.mem_cons_of_mem _ List.mem_cons_self, Or.inr rfl⟩

/-- The gradients of modes with real quadratic functions are exact. -/
theorem C89_radial_gradients (useComplex : Bool) (x : List ℝ) (hx : x.Pairwise (· < ·)) (h3 : 3 ≤ x.length)
    (modes : List ((ℝ × ℝ × ℝ) × (ℝ × ℝ × ℝ))) :
    radialGradients useComplex defaultGradient x (modes.map fun q =>
      (.real (x.map (quad q.1.1 q.1.2.1 q.1.2.2)), .real (x.map (quad q.2.1 q.2.2.1 q.2.2.2)))) =
    some (modes.map fun q => (some (.real (x.map (quad' q.1.2.1 q.1.2.2))), some (.real (x.map (quad' q.2.2.1 q.2.2.2))))) := by
  unfold radialGradients
  induction modes with
  | nil => rfl
  | cons q t ih =>
    simp only [List.map_cons, List.mapM_cons, C89_real_profile _ _ x hx h3]
    rw [ih]
    rfl

/-! ### C91 -/

theorem at_linspace (a b : ℝ) (num k : ℕ) (hk : k < num) :
    at' (linspace a b num) k = a + k * ((b - a) / ((num - 1 : ℕ) : ℝ)) := by
  simp [at', linspace, tab, List.getD, hk]

theorem linspace_inj (a b : ℝ) (num : ℕ) (hab : a < b) (h2 : 2 ≤ num) (i j : ℕ) (hi : i < num) (hj : j < num)
    (h : at' (linspace a b num) i = at' (linspace a b num) j) : i = j := by
  rw [at_linspace _ _ _ _ hi, at_linspace _ _ _ _ hj] at h
  have hn : (0 : ℝ) < ((num - 1 : ℕ) : ℝ) := by exact_mod_cast (by omega : 0 < num - 1)
  have hs : (b - a) / ((num - 1 : ℕ) : ℝ) ≠ 0 := (div_pos (by linarith) hn).ne'
  have : (i : ℝ) = j := mul_right_cancel₀ hs (by linarith)
  exact_mod_cast this

/-- The number of refined points that are points of the grid is the number of grid points that are refined points. -/
theorem idx_length (x xs : List ℝ) (hx : x.Nodup) (hxs : xs.Nodup) :
    ((List.range xs.length).filter fun k => at' xs k ∈ x).length = (x.filter fun t => t ∈ xs).length := by
  have e1 : ((List.range xs.length).filter fun k => decide (at' xs k ∈ x)).map (at' xs) = xs.filter fun t => decide (t ∈ x) := by
    have hm : (List.range xs.length).map (at' xs) = xs := by
      apply List.ext_getElem (by simp)
      intro i h1 h2
      simp [at', List.getD, h2]
    conv_rhs => rw [← hm, List.filter_map]
    rfl
  have := congrArg List.length e1
  rw [List.length_map] at this
  rw [this]
  have h1 : (xs.filter fun t => decide (t ∈ x)).toFinset = (x.filter fun t => decide (t ∈ xs)).toFinset := by
    ext t; simp [and_comm]
  have h2 := congrArg Finset.card h1
  rw [List.toFinset_card_of_nodup (hxs.filter _), List.toFinset_card_of_nodup (hx.filter _)] at h2
  exact h2

/-- **C91, refuted in general.**  With interpolation the derivative arrays have one entry for every grid point that
happens to be one of the equally spaced refined points, and are therefore as long as the grid exactly when all grid
points are. -/
theorem C91_length_partial (m : Method) (ord f : ℕ) (x y : List ℝ) (hx : x.Pairwise (· < ·)) (h2 : 2 ≤ x.length) (hf : 2 ≤ f)
    (ds : List (Option (List ℝ))) (h : differentiate m ord (some f) x y = some ds) (k : ℕ) (a : List ℝ)
    (ha : ds[k]? = some (some a)) :
    a.length = (x.filter fun t => t ∈ linspace (at' x 0) (at' x (x.length - 1)) (x.length * f - 1)).length ∧
    (a.length = x.length ↔ ∀ t ∈ x, t ∈ linspace (at' x 0) (at' x (x.length - 1)) (x.length * f - 1)) := by
  have hn : 2 ≤ x.length * f - 1 := by
    have : 2 * 2 ≤ x.length * f := Nat.mul_le_mul h2 hf
    omega
  simp only [differentiate] at h
  set xs := linspace (at' x 0) (at' x (x.length - 1)) (x.length * f - 1) with hxs
  have hlen : xs.length = x.length * f - 1 := by simp [hxs, linspace, tab]
  have hnd : xs.Nodup := by
    rw [List.nodup_iff_injective_get]
    intro i j hij
    have hi := i.2; have hj := j.2
    have := linspace_inj _ _ _ (at_lt x hx 0 (x.length - 1) (by omega) (by omega)) hn i j (by omega) (by omega)
      (by rw [← hxs]; simpa [at', List.getD] using hij)
    exact Fin.ext this
  have hxn : x.Nodup := hx.imp fun h => h.ne
  cases hy : xs.mapM fun t => AngInt.interp1d x y t with
  | none => rw [hy] at h; cases h
  | some ys =>
    cases he : execute m ord xs ys with
    | none => rw [hy] at h; simp only [Option.bind_eq_bind, Option.bind_some, he] at h; cases h
    | some es =>
      rw [hy] at h
      simp only [Option.bind_eq_bind, Option.bind_some, he, Option.some.injEq] at h
      subst h
      rw [List.getElem?_map] at ha
      obtain ⟨d, hd, hda⟩ := Option.map_eq_some_iff.1 ha
      obtain ⟨b, hb, hba⟩ := Option.map_eq_some_iff.1 hda
      have hl : a.length = (x.filter fun t => t ∈ xs).length := by
        rw [← hba, List.length_map, ← idx_length x xs hxn hnd]
      refine ⟨hl, ?_⟩
      rw [hl, List.length_filter_eq_length_iff]
      simp

theorem interp1d_inside (x y : List ℝ) (hl : x.length = y.length) (h2 : 2 ≤ x.length) (t : ℝ)
    (h0 : at' x 0 ≤ t) (h1 : t ≤ at' x (x.length - 1)) : ∃ v, AngInt.interp1d x y t = some v := by
  induction x generalizing y with
  | nil => simp at h2
  | cons x0 x ih =>
    match x, y, hl with
    | [], _, _ => simp at h2
    | x1 :: xs, [], hl => simp at hl
    | x1 :: xs, [y0], hl => simp at hl
    | x1 :: xs, y0 :: y1 :: ys, hl =>
      have h0' : x0 ≤ t := by simpa [at'] using h0
      rw [AngInt.interp1d, if_neg (not_lt.2 h0')]
      by_cases ht : t ≤ x1
      · rw [if_pos ht]; exact ⟨_, rfl⟩
      · rw [if_neg ht]
        match xs, ys, hl with
        | [], _, _ => simp [at'] at h1; exact absurd h1 ht
        | x2 :: xs, ys, hl =>
          refine ih (y1 :: ys) (by simpa using hl) (by simp) ?_ ?_
          · simpa [at'] using (not_le.1 ht).le
          · simpa [at'] using h1

theorem mapM_exists {α β : Type} (f : α → Option β) (L : List α) (h : ∀ a ∈ L, ∃ b, f a = some b) :
    ∃ bs, L.mapM f = some bs ∧ bs.length = L.length := by
  induction L with
  | nil => exact ⟨[], rfl, rfl⟩
  | cons a L ih =>
    obtain ⟨b, hb⟩ := h a (by simp)
    obtain ⟨bs, hbs, hl⟩ := ih fun a ha => h a (by simp [ha])
    exact ⟨b :: bs, by rw [List.mapM_cons, hb, hbs]; rfl, by simp [hl]⟩

/-- With interpolation the default method always delivers a derivative array (on increasing grids). -/
theorem interpolated_exists (x y : List ℝ) (hx : x.Pairwise (· < ·)) (hl : y.length = x.length) (h2 : 2 ≤ x.length)
    (e f : ℕ) (he : e ≤ 2) (hf : 2 ≤ f) :
    ∃ a d, differentiate (.gradient e) 1 (some f) x y = some [some a, some d] := by
  have hn : 3 ≤ x.length * f - 1 := by
    have : 2 * 2 ≤ x.length * f := Nat.mul_le_mul h2 hf
    omega
  simp only [differentiate]
  set xs := linspace (at' x 0) (at' x (x.length - 1)) (x.length * f - 1) with hxs
  have hlen : xs.length = x.length * f - 1 := by simp [hxs, linspace, tab]
  have hlt := at_lt x hx 0 (x.length - 1) (by omega) (by omega)
  obtain ⟨ys, hys, hyl⟩ := mapM_exists (fun t => AngInt.interp1d x y t) xs (by
    intro t ht
    rw [hxs] at ht
    simp only [linspace, tab, List.mem_map, List.mem_range] at ht
    obtain ⟨k, hk, rfl⟩ := ht
    have hnn : (0 : ℝ) < ((x.length * f - 1 - 1 : ℕ) : ℝ) := by exact_mod_cast (by omega : 0 < x.length * f - 1 - 1)
    have hk' : (k : ℝ) ≤ ((x.length * f - 1 - 1 : ℕ) : ℝ) := by exact_mod_cast (by omega : k ≤ x.length * f - 1 - 1)
    have hstep : 0 ≤ (at' x (x.length - 1) - at' x 0) / ((x.length * f - 1 - 1 : ℕ) : ℝ) :=
      div_nonneg (by linarith) hnn.le
    refine interp1d_inside x y hl.symm h2 _ ?_ ?_
    · have := mul_nonneg (Nat.cast_nonneg k (α := ℝ)) hstep
      linarith
    · have h1 := mul_le_mul_of_nonneg_right hk' hstep
      rw [mul_div_cancel₀ _ hnn.ne'] at h1
      linarith)
  rw [hys]
  have hg : ∃ g, gradient e xs ys = some g := by
    unfold gradient
    simp only
    rw [if_neg (by omega)]
    exact ⟨_, rfl⟩
  obtain ⟨g, hg⟩ := hg
  simp [execute, List.range_succ, hg]

/-- **C91 refuted**: with the default factor 10 on the grid 0, 1, 2, 3 two values are returned instead of four,
whatever is differentiated. -/
theorem C91_points_lost_wrong (y : List ℝ) (hy : y.length = 4) :
    ∃ a d, differentiate defaultGradient 1 (some 10) [0, 1, 2, 3] y = some [some a, some d] ∧ d.length = 2 := by
  have hx : ([0, 1, 2, 3] : List ℝ).Pairwise (· < ·) := by norm_num
  obtain ⟨a, d, h⟩ := interpolated_exists [0, 1, 2, 3] y hx hy (by simp) 2 10 (by omega) (by omega)
  refine ⟨a, d, h, ?_⟩
  have := (C91_length_partial (.gradient 2) 1 10 [0, 1, 2, 3] y hx (by simp) (by omega) _ h 1 d rfl).1
  rw [this]
  have hmem : ∀ t : ℝ, t ∈ linspace (at' [0, 1, 2, 3] 0) (at' [0, 1, 2, 3] (([0, 1, 2, 3] : List ℝ).length - 1))
      (([0, 1, 2, 3] : List ℝ).length * 10 - 1) ↔ ∃ k : ℕ, k < 39 ∧ (k : ℝ) * 3 = t * 38 := by
    intro t
    simp only [linspace, tab, List.mem_map, List.mem_range, at']
    norm_num
    refine exists_congr fun k => and_congr Iff.rfl ?_
    constructor <;> intro h <;> linarith
  have m0 : (0 : ℝ) ∈ _ := (hmem 0).2 ⟨0, by omega, by norm_num⟩
  have m3 : (3 : ℝ) ∈ _ := (hmem 3).2 ⟨38, by omega, by norm_num⟩
  have m1 : ¬ (1 : ℝ) ∈ _ := fun h => by
    obtain ⟨k, -, hk⟩ := (hmem 1).1 h
    have : k * 3 = 38 := by exact_mod_cast (by linarith : (k : ℝ) * 3 = 38)
    omega
  have m2 : ¬ (2 : ℝ) ∈ _ := fun h => by
    obtain ⟨k, -, hk⟩ := (hmem 2).1 h
    have : k * 3 = 76 := by exact_mod_cast (by linarith : (k : ℝ) * 3 = 76)
    omega
  generalize linspace _ _ _ = L at *
  simp [List.filter_cons, m0, m1, m2, m3]

/-- Non-vacuity of `C91_length_partial`, positive case: three equally spaced points and the default factor. -/
example : ∀ t ∈ ([0, 1, 2] : List ℝ), t ∈ linspace 0 2 (3 * 10 - 1) := by
  intro t ht
  simp only [linspace, tab, List.mem_map, List.mem_range]
  simp at ht
  rcases ht with rfl | rfl | rfl
  · exact ⟨0, by omega, by norm_num⟩
  · exact ⟨14, by omega, by norm_num⟩
  · exact ⟨28, by omega, by norm_num⟩

end
end Verif.NumDeriv
