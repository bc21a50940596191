import Verif.Coupling.Props2
import Verif.Coupling.Pipeline3
import Verif.Coupling.Pipeline4
import Verif.Tar.Claims2
/-!
# C151: the coupling coefficient profile, term by term

`aesolver/aesolver/coupling_coefficients/quadratic_coupling_coefficient_rotating.py` (below: qcc) and
`aesolver/aesolver/solver/quadratic_profile.py` (below: qp).  Real eigenfunctions and exact arithmetic, as in `Verif.Coupling`;
`none` is an exception.
-/
namespace Verif.ProfRun
noncomputable section
open Coupling

/-- The five arrays filled by `adiabatic_coupling_rot_profile` (qcc 1888-1946; the two loops, with and without progress bar,
do the same): entry 0 is `_coupling_coefficient_integrated`, entry `k` is `_cc_term_k_integrated`.  Zeros, then entry `i - 1`
of each of them from the call with `indexer = i`, for `i = 2 … n`. -/
def profiles (o : Obj) (g : ℕ → Garbage) : Option (Fin 5 → List ℝ) :=
  (List.range' 2 (o.x.length - 1)).foldlM (fun arr i => do
    let c ← coupling o (g i) (some i)
    pure fun k : Fin 5 => (arr k).set (i - 1) ((c.1 :: c.2).getD k 0)) fun _ => o.x.map fun _ => 0

/-- `normed_coupling_coefficient_profile` and `normed_contributions_coupling_coefficient_profile` (qcc 488-521) after the
construction of the coupling object and `adiabatic_coupling_rot_profile`. -/
def normedProfiles (s : Setting) (p : HoughNorm) (o : Obj) (g : ℕ → Garbage) : Option (Fin 5 → List ℝ) := do
  let r ← construct s p o
  let a ← profiles r.1 g
  pure fun k => (a k).map fun v => v / r.2.1 1

/-- The values obtained from one computation: the coefficient and its four terms. -/
def five (c : ℝ × List ℝ) (k : Fin 5) : ℝ := (c.1 :: c.2).getD k 0

theorem profiles_fold (o : Obj) (g : ℕ → Garbage) (s n : ℕ) (arr out : Fin 5 → List ℝ) (hs : 1 ≤ s)
    (h : (List.range' s n).foldlM (fun arr i => do
      let c ← coupling o (g i) (some i)
      pure fun k : Fin 5 => (arr k).set (i - 1) ((c.1 :: c.2).getD k 0)) arr = some out) :
    ∀ k : Fin 5, (out k).length = (arr k).length ∧
      ∀ j, (s ≤ j + 1 ∧ j + 1 < s + n ∧ j < (arr k).length →
          ∃ c, coupling o (g (j + 1)) (some (j + 1)) = some c ∧ (out k)[j]? = some (five c k)) ∧
        (¬ (s ≤ j + 1 ∧ j + 1 < s + n) → (out k)[j]? = (arr k)[j]?) := by
  induction n generalizing s arr with
  | zero =>
    have : arr = out := by simpa using h
    subst this
    exact fun k => ⟨rfl, fun j => ⟨fun hj => by omega, fun _ => rfl⟩⟩
  | succ n ih =>
    rw [List.range'_succ, List.foldlM_cons] at h
    simp only [Option.bind_eq_bind] at h
    obtain ⟨a1, h1, h⟩ := Option.bind_eq_some_iff.1 h
    obtain ⟨c, hc, h1⟩ := Option.bind_eq_some_iff.1 h1
    simp only [pure, Option.some.injEq] at h1
    subst h1
    have := ih (s + 1) _ (by omega) h
    intro k
    obtain ⟨hl, hj⟩ := this k
    simp only [List.length_set] at hl hj
    refine ⟨hl, fun j => ⟨fun hj1 => ?_, fun hj1 => ?_⟩⟩
    · by_cases e : j + 1 = s
      · refine ⟨c, by rw [e]; exact hc, ?_⟩
        rw [(hj j).2 (by omega), show s - 1 = j by omega, List.getElem?_set_self hj1.2.2]
        rfl
      · exact (hj j).1 ⟨by omega, by omega, hj1.2.2⟩
    · rw [(hj j).2 (by omega), List.getElem?_set_ne (by omega)]

/-- The profiles exist exactly when the coefficient can be computed on every slice of at least two points. -/
theorem profiles_some (o : Obj) (g : ℕ → Garbage) :
    (∃ a, profiles o g = some a) ↔ ∀ i, 2 ≤ i → i ≤ o.x.length → ∃ c, coupling o (g i) (some i) = some c := by
  have key : ∀ (n s : ℕ) (arr : Fin 5 → List ℝ), (∃ a, (List.range' s n).foldlM (fun arr i => do
      let c ← coupling o (g i) (some i)
      pure fun k : Fin 5 => (arr k).set (i - 1) ((c.1 :: c.2).getD k 0)) arr = some a) ↔
      ∀ i, s ≤ i → i < s + n → ∃ c, coupling o (g i) (some i) = some c := by
    intro n
    induction n with
    | zero => exact fun s arr => ⟨fun _ i h1 h2 => by omega, fun _ => ⟨arr, rfl⟩⟩
    | succ n ih =>
      intro s arr
      rw [List.range'_succ, List.foldlM_cons]
      simp only [Option.bind_eq_bind]
      constructor
      · rintro ⟨a, h⟩
        obtain ⟨a1, h1, h⟩ := Option.bind_eq_some_iff.1 h
        obtain ⟨c, hc, h1⟩ := Option.bind_eq_some_iff.1 h1
        intro i h2 h3
        by_cases e : i = s
        · exact ⟨c, e ▸ hc⟩
        · exact (ih (s + 1) a1).1 ⟨a, h⟩ i (by omega) (by omega)
      · intro h
        obtain ⟨c, hc⟩ := h s le_rfl (by omega)
        rw [hc]
        simp only [Option.bind_some, pure]
        exact (ih (s + 1) _).2 fun i h1 h2 => h i (by omega) (by omega)
  unfold profiles
  rw [key]
  exact ⟨fun h i h1 h2 => h i h1 (by omega), fun h i h1 h2 => h i h1 (by omega)⟩

theorem coupling_terms (o : Obj) (g : Garbage) (idx : Option ℕ) (c : ℝ × List ℝ) (h : coupling o g idx = some c) :
    ∃ a b d e, c = (a + b + d + e, [a, b, d, e]) := by
  simp only [coupling, Option.bind_eq_bind] at h
  obtain ⟨a, _, h⟩ := Option.bind_eq_some_iff.1 h
  obtain ⟨b, _, h⟩ := Option.bind_eq_some_iff.1 h
  obtain ⟨d, _, h⟩ := Option.bind_eq_some_iff.1 h
  obtain ⟨e, _, h⟩ := Option.bind_eq_some_iff.1 h
  simp only [pure, Option.some.injEq] at h
  exact ⟨a, b, d, e, h.symm⟩

theorem five_sum (o : Obj) (g : Garbage) (idx : Option ℕ) (c : ℝ × List ℝ) (h : coupling o g idx = some c) :
    five c 0 = ∑ k : Fin 4, five c k.succ := by
  obtain ⟨a, b, d, e, rfl⟩ := coupling_terms o g idx c h
  rw [Fin.sum_univ_four]
  rfl

/-- The `k`-th curve of the second figure at grid point `j`. -/
def at' (a : Fin 5 → List ℝ) (k : Fin 5) (j : ℕ) : ℝ := (a k).getD j 0

theorem profiles_get (o : Obj) (g : ℕ → Garbage) (a : Fin 5 → List ℝ) (h : profiles o g = some a) (k : Fin 5) :
    (a k).length = o.x.length ∧ at' a k 0 = 0 ∧ ∀ j, 1 ≤ j → j < o.x.length →
      ∃ c, coupling o (g (j + 1)) (some (j + 1)) = some c ∧ ∀ k, at' a k j = five c k := by
  have hk := profiles_fold o g 2 (o.x.length - 1) _ a (by norm_num) h
  simp only [List.length_map] at hk
  refine ⟨(hk k).1, ?_, fun j h1 h2 => ?_⟩
  · have := ((hk k).2 0).2 (by omega)
    rw [at', List.getD_eq_getElem?_getD, this]
    by_cases h0 : 0 < o.x.length <;> simp [h0]
  · obtain ⟨c, hc, -⟩ := ((hk k).2 j).1 ⟨by omega, by omega, h2⟩
    refine ⟨c, hc, fun k => ?_⟩
    obtain ⟨c', hc', e⟩ := ((hk k).2 j).1 ⟨by omega, by omega, h2⟩
    rw [hc] at hc'
    cases hc'
    rw [at', List.getD_eq_getElem?_getD, e]
    rfl

theorem normed_get (s : Setting) (p : HoughNorm) (o : Obj) (g : ℕ → Garbage) (N : Fin 5 → List ℝ)
    (h : normedProfiles s p o g = some N) : ∃ o2 E F a, construct s p o = some (o2, E, F) ∧ profiles o2 g = some a ∧
      ∀ k, (N k).length = o2.x.length ∧ ∀ j, at' N k j = at' a k j / E 1 := by
  simp only [normedProfiles, Option.bind_eq_bind] at h
  obtain ⟨⟨o2, E, F⟩, h1, h⟩ := Option.bind_eq_some_iff.1 h
  obtain ⟨a, h2, h⟩ := Option.bind_eq_some_iff.1 h
  simp only [pure, Option.some.injEq] at h
  subst h
  refine ⟨o2, E, F, a, h1, h2, fun k => ⟨?_, fun j => ?_⟩⟩
  · rw [List.length_map]; exact (profiles_get o2 g a h2 k).1
  · simp only [at', List.getD_eq_getElem?_getD, List.getElem?_map]
    cases (a k)[j]? <;> simp

/-- **C151.** At every grid point the four term-by-term curves of a profile run add up to the curve of the total. -/
theorem C151_terms_sum (s : Setting) (p : HoughNorm) (o : Obj) (g : ℕ → Garbage) (N : Fin 5 → List ℝ)
    (h : normedProfiles s p o g = some N) (j : ℕ) : at' N 0 j = ∑ k : Fin 4, at' N k.succ j := by
  obtain ⟨o2, E, F, a, -, h2, hN⟩ := normed_get s p o g N h
  simp only [(hN _).2]
  rw [← Finset.sum_div]
  congr 1
  rcases Nat.eq_zero_or_pos j with rfl | hj
  · simp only [(profiles_get o2 g a h2 _).2.1, Finset.sum_const_zero]
  · by_cases hl : j < o2.x.length
    · obtain ⟨c, hc, e⟩ := (profiles_get o2 g a h2 0).2.2 j hj hl
      simp only [e]
      exact five_sum _ _ _ _ hc
    · have : ∀ k, at' a k j = 0 := fun k => by
        rw [at', List.getD_eq_getElem?_getD, List.getElem?_eq_none (by rw [(profiles_get o2 g a h2 k).1]; omega)]
        rfl
      simp [this]

/-- **C151.** All five curves have one value per point of the radial grid and start at zero; at the last point they have the
normalised coefficient and its four terms as computed (and stored) by a run without profile; in particular the coefficient that
is printed before adjustment is the one of a grid run. -/
theorem C151_ends (s : Setting) (p : HoughNorm) (o : Obj) (g : ℕ → Garbage) (g0 : Garbage) (N : Fin 5 → List ℝ)
    (hg : ∀ i, GoodGarbage (g i)) (hg0 : GoodGarbage g0) (h : normedProfiles s p o g = some N) :
    ∃ o2 E F, construct s p o = some (o2, E, F) ∧ (∀ k, (N k).length = o2.x.length ∧ at' N k 0 = 0) ∧
      (2 ≤ o2.x.length → ∃ total t1 t2 t3 t4, coupling o2 g0 none = some (total, [t1, t2, t3, t4]) ∧
        (∀ k, at' N k (o2.x.length - 1) = ![total, t1, t2, t3, t4] k / E 1) ∧
        normedCoupling s p o g0 = some (at' N 0 (o2.x.length - 1))) := by
  obtain ⟨o2, E, F, a, h1, h2, hN⟩ := normed_get s p o g N h
  refine ⟨o2, E, F, h1, fun k => ⟨(hN k).1, ?_⟩, fun hl => ?_⟩
  · rw [(hN k).2, (profiles_get o2 g a h2 k).2.1, zero_div]
  · obtain ⟨c, hc, e⟩ := (profiles_get o2 g a h2 0).2.2 (o2.x.length - 1) (by omega) (by omega)
    rw [coupling_garbage o2 g0 _ hg0 (hg _), coupling_full o2 g0 _ (by omega)] at hc
    obtain ⟨t1, t2, t3, t4, rfl⟩ := coupling_terms _ _ _ _ hc
    refine ⟨_, t1, t2, t3, t4, hc, fun k => ?_, ?_⟩
    · rw [(hN k).2, e]
      congr 1
      fin_cases k <;> rfl
    · simp only [normedCoupling, h1, Option.bind_eq_bind, Option.bind_some, hc, pure, Option.some.injEq]
      rw [(hN 0).2, e]
      rfl

/-- **C151.** The curves can be made exactly when the coefficient can be computed on every slice of two or more points. -/
theorem C151_exists (s : Setting) (p : HoughNorm) (o : Obj) (g : ℕ → Garbage) :
    (∃ N, normedProfiles s p o g = some N) ↔ ∃ o2 E F, construct s p o = some (o2, E, F) ∧
      ∀ i, 2 ≤ i → i ≤ o2.x.length → ∃ c, coupling o2 (g i) (some i) = some c := by
  constructor
  · rintro ⟨N, h⟩
    obtain ⟨o2, E, F, a, h1, h2, -⟩ := normed_get s p o g N h
    exact ⟨o2, E, F, h1, (profiles_some o2 g).1 ⟨a, h2⟩⟩
  · rintro ⟨o2, E, F, h1, h2⟩
    obtain ⟨a, ha⟩ := (profiles_some o2 g).2 h2
    exact ⟨_, by simp only [normedProfiles, h1, Option.bind_eq_bind, Option.bind_some, ha]; rfl⟩

/-- **C151.** The adjusted values (and the unadjusted ones) that are printed for the four terms add up to those of the total. -/
theorem C151_adjusted (s : Setting) (p : HoughNorm) (o : Obj) (g : ℕ → Garbage) (N : Fin 5 → List ℝ)
    (h : normedProfiles s p o g = some N) (i : Tar.Inp) (r : Tar.Res) (hr : Tar.masking i = .ok r)
    (hl : ∀ k, (N k).length = i.n2.length) :
    ∃ os tot, Tar.adjustAll r [N 1, N 2, N 3, N 4] = some os ∧ Tar.adjust r (N 0) = some tot ∧
      (os.map fun a => a.value).sum = tot.value ∧ (os.map fun a => a.adjusted).sum = tot.adjusted := by
  refine Tar.C100_terms i r [N 1, N 2, N 3, N 4] (N 0) hr ?_ (hl 0) ?_
  · intro z hz
    simp only [List.mem_cons, List.not_mem_nil, or_false] at hz
    rcases hz with rfl | rfl | rfl | rfl <;> exact hl _
  · intro k
    have := C151_terms_sum s p o g N h k
    rw [Fin.sum_univ_four] at this
    simp only [List.map_cons, List.map_nil, List.sum_cons, List.sum_nil, add_zero]
    rw [show (N 0).getD k 0 = at' N 0 k from rfl, this]
    simp only [at']
    show _ = _
    rw [add_assoc, add_assoc]
    rfl

/-- Normalising keeps the radial grid. -/
theorem construct_x (s : Setting) (p : HoughNorm) (o o2 : Obj) (E F : ℕ → ℝ) (h : construct s p o = some (o2, E, F)) :
    o2.x = o.x := by
  unfold construct at h
  obtain ⟨n, h1, h2⟩ := Option.bind_eq_some_iff.1 h
  obtain ⟨f, -, h3, -⟩ := C92_normalised p o n h1
  obtain ⟨-, h4, -⟩ := normalize_spec s n o2 E F h2
  rw [h4.rest, h3.rest]

/-- Non-vacuity: a triad for which the curves exist, under both normalisations; and one of its curves of the total is that of
the normalised coefficient. -/
example (p : HoughNorm) (g : ℕ → Garbage) (hg : ∀ i, GoodGarbage (g i)) :
    ∃ N, normedProfiles ⟨1, 1, 1, fun k => k⟩ p demo g = some N ∧ (∀ k, (N k).length = 2) ∧
      normedCoupling ⟨1, 1, 1, fun k => k⟩ p demo (g 0) = some (at' N 0 1) := by
  obtain ⟨-, ⟨⟨o2, E, F⟩, hr⟩, ⟨v, hv⟩, -⟩ := demo_normed p (g 0) (hg 0)
  have hx : o2.x.length = 2 := by rw [construct_x _ _ _ _ _ _ hr]; rfl
  obtain ⟨N, hN⟩ := (C151_exists ⟨1, 1, 1, fun k => k⟩ p demo g).2 ⟨o2, E, F, hr, fun i h1 h2 => by
    simp only [normedCoupling, Option.bind_eq_bind, hr, Option.bind_some] at hv
    obtain ⟨c, hc, -⟩ := Option.bind_eq_some_iff.1 hv
    refine ⟨c, ?_⟩
    rw [coupling_garbage o2 (g 0) _ (hg 0) (hg i), coupling_full o2 _ _ (by omega)]
    exact hc⟩
  obtain ⟨o2', E', F', h1, h2, h3⟩ := C151_ends _ p demo g (g 0) N hg (hg 0) hN
  rw [hr] at h1
  cases h1
  obtain ⟨t, a, b, c, d, -, -, h4⟩ := h3 hx.ge
  exact ⟨N, hN, fun k => (h2 k).1.trans hx, by rw [hx] at h4; exact h4⟩

end
end Verif.ProfRun
