import Verif.Round.NumInt
import Verif.Disc.Props
/-!
# C139: rounding errors of the limb-darkening law and of the disc integrals
-/
namespace Verif.Round
open Verif.Disc Verif.Disc.Spec Spec Finset

variable {R : Rnd}

/-- Comparison of machine numbers is exact. -/
instance : LE (FP R) := ⟨fun a b => a.val ≤ b.val⟩
open Classical in
noncomputable instance : DecidableLE (FP R) := fun a b => inferInstanceAs (Decidable (a.val ≤ b.val))

/-- The law, in exact arithmetic. -/
noncomputable def ldLaw (m : ℝ) : ℝ := 1 + 3 / 2 * m

theorem err_law (m : FP R) :
    Err R 3 (((1 : ℕ) : FP R) + (((3 : ℕ) : FP R) / ((2 : ℕ) : FP R)) * m).val (ldLaw m.val) (1 + 3 / 2 * |m.val|) := by
  have := ((Err.nat (R := R) 1).mono (by omega : 0 ≤ 2)).add (((Err.nat 3).divNat 2).mul (Err.exact m.val))
  unfold ldLaw
  push_cast at this
  exact this

/-- C139: each value of the limb-darkening law is off by at most three roundings. -/
theorem C139_law (hist : List String) (s : String) (paral : Bool) (o1 o2 : List ℕ) (kap res : ℕ) (hne : kap ≠ res)
    (h : Ld.Heap (FP R)) (hlen : (h kap).length ≤ (h res).length)
    (h1 : o1.Perm (List.range (h kap).length)) (h2 : o2.Perm (List.range (h kap).length)) :
    ∃ h', Ld.ldCompute (Ld.mapperAfter hist) s paral o1 o2 kap res h = some h' ∧
      ∀ k (hk : k < (h kap).length), ∃ v : FP R, (h' res)[k]? = some v ∧
        |v.val - (1 + 3 / 2 * (h kap)[k].val)| ≤ ((1 + R.u) ^ 3 - 1) * (1 + 3 / 2 * |(h kap)[k].val|) := by
  obtain ⟨h', e1, _, e2⟩ := Ld.C12_eddington_pointwise hist s paral o1 o2 kap res hne h hlen h1 h2
  refine ⟨h', e1, fun k hk => ⟨_, ?_, (err_law (h kap)[k]).1⟩⟩
  rw [e2, List.getElem?_append_left (by simpa using hk), List.getElem?_map, List.getElem?_eq_getElem hk]
  rfl

/-- The integrands, in exact arithmetic, and the size of their terms. -/
noncomputable def first (m a : ℝ) : ℝ := m * a * ldLaw m
noncomputable def second (m f s : ℝ) : ℝ := (2 * m * f + (m * m - 1) * s) * ldLaw m * m
noncomputable def secondSize (m f s : ℝ) : ℝ := (2 * m * |f| + (m * m + 1) * |s|) * ldLaw m * m

theorem err_first {s : Sample (FP R)} (h0 : 0 ≤ s.1.val) :
    Err R 5 (firstAt s).val (first s.1.val s.2.1.val) (first s.1.val |s.2.1.val|) := by
  have hl := err_law s.1
  rw [abs_of_nonneg h0] at hl
  have := ((Err.exact_le (R := R) (abs_of_nonneg h0).le).mul (Err.exact s.2.1.val)).mul hl
  exact this

theorem err_second {s : Sample (FP R)} (h0 : 0 ≤ s.1.val) :
    Err R 9 (secondAt s).val (second s.1.val s.2.2.1.val s.2.2.2.val) (secondSize s.1.val s.2.2.1.val s.2.2.2.val) := by
  have hl := err_law s.1
  rw [abs_of_nonneg h0] at hl
  have hm : Err R 0 s.1.val s.1.val s.1.val := Err.exact_le (abs_of_nonneg h0).le
  have t1 := ((Err.nat (R := R) 2).mul hm).mul (Err.exact s.2.2.1.val)
  have t2 := (((hm.mul hm).sub ((Err.nat (R := R) 1).mono (by omega : 0 ≤ 1))).mul (Err.exact s.2.2.2.val))
  have := (((t1.mono (by omega : _ ≤ 3)).add t2).mul hl).mul hm
  unfold second secondSize ldLaw
  push_cast at this
  exact this

theorem visible_nonneg {l : List (Sample (FP R))} {s : Sample (FP R)} (h : s ∈ visible l) : 0 ≤ s.1.val := by
  unfold visible at h
  have := (List.mem_filter.1 h).2
  have h2 := (of_decide_eq_true this).1
  have h3 : (((0 : ℕ) : FP R)).val ≤ s.1.val := h2
  simpa using h3

/-- C139: the disc integrals with the trapezoid rule, with rounding. -/
theorem C139_disc (ldHist niHist : List String) (o : Orders) (l : List (Sample (FP R))) (lds ints : String)
    (hints : ints ≠ "simpson") (threads : ℤ) (paral : Bool) (n : ℕ) (hn : 2 ≤ n) (mu f f' f'' : ℕ → FP R)
    (hvis : visible l = tab n (fun i => (mu i, f i, f' i, f'' i))) (ho : Orders.Valid o n) :
    ∃ r1 r2, call ldHist niHist o l lds ints threads paral = some (r1, r2) ∧
      |r1.val - trapEven n (spacing mu) (fun i => first (mu i).val (f i).val)| ≤
        ((1 + R.u) ^ (n + 7) - 1) * trapEven n |spacing mu| (fun i => first (mu i).val |(f i).val|) ∧
      |r2.val - trapEven n (spacing mu) (fun i => second (mu i).val (f' i).val (f'' i).val)| ≤
        ((1 + R.u) ^ (n + 11) - 1) * trapEven n |spacing mu| (fun i => secondSize (mu i).val (f' i).val (f'' i).val) := by
  have hlen : (visible l).length = n := by rw [hvis]; simp
  have hnn : ∀ i < n, 0 ≤ (mu i).val := by
    intro i hi
    have hm : (mu i, f i, f' i, f'' i) ∈ visible l := by
      rw [hvis]
      exact List.mem_map.2 ⟨i, List.mem_range.2 hi, rfl⟩
    exact visible_nonneg hm
  rw [call_eq _ _ _ _ _ _ _ _ (by rw [hlen]; exact ho), hvis]
  have hm : ∀ g : Sample (FP R) → FP R, (tab n (fun i => (mu i, f i, f' i, f'' i))).map g =
      tab n (fun i => g (mu i, f i, f' i, f'' i)) := by
    intro g; simp [tab, Function.comp_def]
  rw [hm, hm, hm, NumInt.cni_eq, NumInt.cni_eq, if_neg hints, if_neg hints]
  obtain ⟨r1, hr1, er1⟩ := trapz_err_even' (R := R) ints n hn mu (fun i => firstAt (mu i, f i, f' i, f'' i)) threads paral
    (fun i hi => err_first (s := (mu i, f i, f' i, f'' i)) (hnn i hi))
  obtain ⟨r2, hr2, er2⟩ := trapz_err_even' (R := R) ints n hn mu (fun i => secondAt (mu i, f i, f' i, f'' i)) threads paral
    (fun i hi => err_second (s := (mu i, f i, f' i, f'' i)) (hnn i hi))
  refine ⟨r1, r2, ?_, ?_, ?_⟩
  · dsimp only at hr1 hr2 ⊢
    rw [hr1, hr2]
    rfl
  · have := er1.1
    rw [show 5 + n + 2 = n + 7 by omega] at this
    exact this
  · have := er2.1
    rw [show 9 + n + 2 = n + 11 by omega] at this
    exact this

/-- C139: with Simpson's rule (an odd number of visible samples). -/
theorem C139_disc_simpson (ldHist niHist : List String) (o : Orders) (l : List (Sample (FP R))) (lds : String)
    (threads : ℤ) (paral : Bool) (m : ℕ) (hm1 : 1 ≤ m) (mu f f' f'' : ℕ → FP R)
    (hvis : visible l = tab (2 * m + 1) (fun i => (mu i, f i, f' i, f'' i))) (ho : Orders.Valid o (2 * m + 1)) :
    ∃ r1 r2, call ldHist niHist o l lds "simpson" threads paral = some (r1, r2) ∧
      |r1.val - simpsonSum m (spacing mu) (fun i => first (mu i).val (f i).val)| ≤
        ((1 + R.u) ^ (m + 10) - 1) * simpsonSum m |spacing mu| (fun i => first (mu i).val |(f i).val|) ∧
      |r2.val - simpsonSum m (spacing mu) (fun i => second (mu i).val (f' i).val (f'' i).val)| ≤
        ((1 + R.u) ^ (m + 14) - 1) * simpsonSum m |spacing mu| (fun i => secondSize (mu i).val (f' i).val (f'' i).val) := by
  have hlen : (visible l).length = 2 * m + 1 := by rw [hvis]; simp
  have hnn : ∀ i < 2 * m + 1, 0 ≤ (mu i).val := by
    intro i hi
    have hm : (mu i, f i, f' i, f'' i) ∈ visible l := by
      rw [hvis]
      exact List.mem_map.2 ⟨i, List.mem_range.2 hi, rfl⟩
    exact visible_nonneg hm
  rw [call_eq _ _ _ _ _ _ _ _ (by rw [hlen]; exact ho), hvis]
  have hm : ∀ g : Sample (FP R) → FP R, (tab (2 * m + 1) (fun i => (mu i, f i, f' i, f'' i))).map g =
      tab (2 * m + 1) (fun i => g (mu i, f i, f' i, f'' i)) := by
    intro g; simp [tab, Function.comp_def]
  rw [hm, hm, hm, NumInt.cni_eq, NumInt.cni_eq, if_pos rfl, if_pos rfl]
  obtain ⟨r1, hr1, er1⟩ := simpson_err' (R := R) "simpson" m hm1 mu (fun i => firstAt (mu i, f i, f' i, f'' i)) threads paral
    (fun i hi => err_first (s := (mu i, f i, f' i, f'' i)) (hnn i hi))
  obtain ⟨r2, hr2, er2⟩ := simpson_err' (R := R) "simpson" m hm1 mu (fun i => secondAt (mu i, f i, f' i, f'' i)) threads paral
    (fun i hi => err_second (s := (mu i, f i, f' i, f'' i)) (hnn i hi))
  refine ⟨r1, r2, ?_, ?_, ?_⟩
  · dsimp only at hr1 hr2 ⊢
    rw [hr1, hr2]
    rfl
  · have := er1.1
    rw [show 5 + m + 5 = m + 10 by omega] at this
    exact this
  · have := er2.1
    rw [show 9 + m + 5 = m + 14 by omega] at this
    exact this

/-- Non-vacuity: two visible samples and one that is not. -/
example : visible ([(⟨0⟩, ⟨1⟩, ⟨1⟩, ⟨1⟩), (⟨-1⟩, ⟨1⟩, ⟨1⟩, ⟨1⟩), (⟨1⟩, ⟨1⟩, ⟨1⟩, ⟨1⟩)] : List (Sample (FP double))) =
    tab 2 (fun i => (⟨(i : ℝ)⟩, ⟨1⟩, ⟨1⟩, ⟨1⟩)) ∧ Orders.Valid ⟨[1, 0], [0, 1], [1, 0], [0, 1]⟩ 2 := by
  refine ⟨?_, by unfold Orders.Valid; decide⟩
  have c : ∀ x : ℝ, (((0 : ℕ) : FP double) ≤ ⟨x⟩ ∧ (⟨x⟩ : FP double) ≤ ((1 : ℕ) : FP double)) ↔ (0 ≤ x ∧ x ≤ 1) := by
    intro x
    show ((0 : ℕ) : ℝ) ≤ x ∧ x ≤ ((1 : ℕ) : ℝ) ↔ _
    simp
  unfold visible tab
  rw [List.filter_cons_of_pos (by simp [c]), List.filter_cons_of_neg (by simp [c]), List.filter_cons_of_pos (by simp [c])]
  simp [List.range_succ]

end Verif.Round
