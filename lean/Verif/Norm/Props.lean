import Verif.Norm.Model
import Mathlib.Tactic.Ring
import Mathlib.Tactic.FieldSimp
import Mathlib.Tactic.Linarith
import Mathlib.Tactic.NormNum
import Mathlib.Tactic.Positivity
import Mathlib.Data.List.Nodup
/-!
# C39: eigenfunction normalisation
-/
namespace Verif.Norm
noncomputable section

/-- `b` is `a` with exactly the listed attributes multiplied by `c`. -/
def ScaledBy (params : List String) (c : ℝ) (a b : String → Option (List ℝ)) : Prop :=
  ∀ n, b n = if n ∈ params then (a n).map (fun v => v.map (c * ·)) else a n

theorem scaleAll_spec (params : List String) (hnd : params.Nodup) (c : ℝ) (a b : String → Option (List ℝ))
    (h : scaleAll params c a = some b) : ScaledBy params c a b := by
  induction params generalizing a with
  | nil => simp [scaleAll] at h; subst h; intro n; simp
  | cons p t ih =>
    simp only [scaleAll, List.foldlM_cons, Option.bind_eq_bind] at h
    cases hp : a p with
    | none => simp [hp] at h
    | some v =>
      simp only [hp, Option.map_some, Option.bind_some] at h
      have := ih (List.nodup_cons.1 hnd).2 _ h
      have hpt := (List.nodup_cons.1 hnd).1
      intro n
      rw [this n]
      by_cases hn : n = p
      · subst hn; simp [hpt, hp]
      · simp [hn]

/-- `scaleAll` succeeds exactly when all attributes are present. -/
theorem scaleAll_total (params : List String) (c : ℝ) (a : String → Option (List ℝ))
    (h : ∀ n ∈ params, (a n).isSome) : ∃ b, scaleAll params c a = some b := by
  induction params generalizing a with
  | nil => exact ⟨a, rfl⟩
  | cons p t ih =>
    obtain ⟨v, hv⟩ := Option.isSome_iff_exists.1 (h p List.mem_cons_self)
    simp only [scaleAll, List.foldlM_cons, Option.bind_eq_bind, hv, Option.map_some, Option.bind_some]
    apply ih
    intro n hn
    by_cases hnp : n = p
    · subst hnp; simp
    · simpa [hnp] using h n (List.mem_cons_of_mem _ hn)

theorem scaledBy_trans (params : List String) (c d : ℝ) (a b e : String → Option (List ℝ))
    (h1 : ScaledBy params c a b) (h2 : ScaledBy params d b e) : ScaledBy params (c * d) a e := by
  intro n
  rw [h2 n, h1 n]
  split_ifs with h
  · cases a n with
    | none => rfl
    | some v =>
      simp only [Option.map_some, List.map_map, Option.some.injEq]
      apply List.map_congr_left
      intro x _
      simp only [Function.comp]; ring
  · rfl

variable {params : List String} {E : Oracle} {c : Conv} {s : Star}

theorem initOne_spec (hnd : params.Nodup) (st st' : St) (i : Nat) (h : initOne params c s st i = some st') :
    st'.factors i = factor c s (st.modes i) ∧
    ScaledBy params (factor c s (st.modes i)) (st.modes i).attrs (st'.modes i).attrs ∧
    (∀ j, j ≠ i → st'.modes j = st.modes j ∧ st'.factors j = st.factors j) ∧
    st'.check = st.check ∧ st'.iterNr = st.iterNr ∧ st'.clock = st.clock := by
  simp only [initOne, Function.update_self, Option.bind_eq_bind] at h
  cases hs : scaleAll params (factor c s (st.modes i)) (st.modes i).attrs with
  | none => simp [hs] at h
  | some a =>
    simp only [hs, Option.bind_some, Option.pure_def, Option.some.injEq] at h
    subst h
    refine ⟨by simp [setAttrs], by simpa [setAttrs] using scaleAll_spec params hnd _ _ _ hs, ?_, rfl, rfl, rfl⟩
    intro j hj
    simp [setAttrs, hj]

theorem init_fold (hnd : params.Nodup) (l : List Nat) (hl : l.Nodup) (st st' : St)
    (h : l.foldlM (initOne params c s) st = some st') :
    (∀ j ∈ l, st'.factors j = factor c s (st.modes j) ∧
      ScaledBy params (factor c s (st.modes j)) (st.modes j).attrs (st'.modes j).attrs) ∧
    (∀ j, j ∉ l → st'.modes j = st.modes j ∧ st'.factors j = st.factors j) ∧
    st'.check = st.check ∧ st'.iterNr = st.iterNr := by
  induction l generalizing st with
  | nil => simp at h; subst h; simp
  | cons i t ih =>
    rw [List.foldlM_cons, Option.bind_eq_bind] at h
    cases h1 : initOne params c s st i with
    | none => simp [h1] at h
    | some st1 =>
      rw [h1, Option.bind_some] at h
      obtain ⟨a1, a2, a3, a4, a5, _⟩ := initOne_spec hnd st st1 i h1
      obtain ⟨b1, b2, b3, b4⟩ := ih (List.nodup_cons.1 hl).2 st1 h
      have hit := (List.nodup_cons.1 hl).1
      refine ⟨?_, ?_, b3.trans a4, b4.trans a5⟩
      · intro j hj
        rcases List.mem_cons.1 hj with rfl | hj
        · obtain ⟨c1, c2⟩ := b2 j hit
          rw [c1, c2]; exact ⟨a1, a2⟩
        · have hji : j ≠ i := fun h => hit (h ▸ hj)
          have := b1 j hj
          rwa [(a3 j hji).1] at this
      · intro j hj
        simp only [List.mem_cons, not_or] at hj
        obtain ⟨c1, c2⟩ := b2 j hj.2
        obtain ⟨d1, d2⟩ := a3 j hj.1
        exact ⟨c1.trans d1, c2.trans d2⟩

theorem energy_fold (l : List Nat) (hl : l.Nodup) (st : St) :
    let st' := l.foldl (energyOne E) st
    (∀ j, (st'.modes j).attrs = (st.modes j).attrs) ∧ st'.factors = st.factors ∧ st'.check = st.check ∧
    st'.iterNr = st.iterNr ∧
    ∀ j ∈ l, ∃ k, ((st'.modes j).energy, (st'.modes j).classic) = E k j (st.modes j).attrs := by
  induction l generalizing st with
  | nil => simp
  | cons i t ih =>
    simp only [List.foldl_cons]
    obtain ⟨h1, h2, h3, h4, h5⟩ := ih (List.nodup_cons.1 hl).2 (energyOne E st i)
    have hit := (List.nodup_cons.1 hl).1
    have hattr : ∀ j, ((energyOne E st i).modes j).attrs = (st.modes j).attrs := by
      intro j
      by_cases hj : j = i
      · subst hj; simp [energyOne]
      · simp [energyOne, hj]
    have hmodes : ∀ (t : List Nat) (st : St), i ∉ t → (t.foldl (energyOne E) st).modes i = st.modes i := by
      intro t
      induction t with
      | nil => intro st _; rfl
      | cons k u ihu =>
        intro st hk
        simp only [List.mem_cons, not_or] at hk
        rw [List.foldl_cons, ihu _ hk.2]
        simp [energyOne, hk.1]
    refine ⟨fun j => (h1 j).trans (hattr j), h2, h3, h4, ?_⟩
    intro j hj
    rcases List.mem_cons.1 hj with rfl | hj
    · refine ⟨st.clock, ?_⟩
      rw [hmodes t _ hit]
      simp [energyOne]
    · obtain ⟨k, hk⟩ := h5 j hj
      exact ⟨k, by rw [hk, hattr j]⟩

/-- The flag of a mode says whether its quantity misses the target. -/
def FlagRight (c : Conv) (s : Star) (st : St) (j : Nat) : Prop :=
  st.check j = true ↔ quantity c (st.modes j) ≠ target c s

theorem checkOne_right (st : St) (i : Nat) : FlagRight c s (checkOne c s st i) i := by
  simp only [FlagRight, checkOne, Function.update_self, Bool.not_eq_true', decide_eq_false_iff_not]
  exact ⟨fun h h' => h h'.symm, fun h h' => h h'.symm⟩

theorem check_fold (l : List Nat) (st : St) (h : ∀ j ∈ l, st.check j = true) (hl : l.Nodup) :
    let st' := l.foldl (fun st i => if st.check i then checkOne c s st i else st) st
    st'.modes = st.modes ∧ st'.factors = st.factors ∧ st'.iterNr = st.iterNr ∧
    (∀ j, j ∉ l → st'.check j = st.check j) ∧ ∀ j ∈ l, FlagRight c s st' j := by
  induction l generalizing st with
  | nil => simp
  | cons i t ih =>
    simp only [List.foldl_cons, h i List.mem_cons_self, if_true]
    have hit := (List.nodup_cons.1 hl).1
    obtain ⟨h1, h2, h3, h4, h5⟩ := ih (checkOne c s st i) (by
      intro j hj
      have hji : j ≠ i := fun h => hit (h ▸ hj)
      simp [checkOne, hji, h j (List.mem_cons_of_mem _ hj)]) (List.nodup_cons.1 hl).2
    refine ⟨h1, h2, h3, ?_, ?_⟩
    · intro j hj
      simp only [List.mem_cons, not_or] at hj
      rw [h4 j hj.2]; simp [checkOne, hj.1]
    · intro j hj
      rcases List.mem_cons.1 hj with rfl | hj
      · have := checkOne_right (c := c) (s := s) st j
        simp only [FlagRight] at this ⊢
        rw [h4 j hit, h1]
        exact this
      · exact h5 j hj

theorem refineOne_spec (hnd : params.Nodup) (st st' : St) (i : Nat)
    (h : refineOne params E c s st i = some st') :
    (∃ f, st'.factors i = st.factors i * f ∧ ScaledBy params f (st.modes i).attrs (st'.modes i).attrs) ∧
    (∀ j, j ≠ i → st'.modes j = st.modes j ∧ st'.factors j = st.factors j ∧ st'.check j = st.check j) ∧
    FlagRight c s st' i ∧ st'.iterNr = st.iterNr := by
  simp only [refineOne, Option.bind_eq_bind] at h
  cases hs : scaleAll params (factor c s (st.modes i)) (st.modes i).attrs with
  | none => simp [hs] at h
  | some a =>
    simp only [hs, Option.bind_some, Option.pure_def, Option.some.injEq] at h
    subst h
    refine ⟨⟨factor c s (st.modes i), ?_, ?_⟩, ?_, checkOne_right _ _, ?_⟩
    · simp [checkOne, energyOne, setAttrs]
    · simpa [checkOne, energyOne, setAttrs] using scaleAll_spec params hnd _ _ _ hs
    · intro j hj
      simp [checkOne, energyOne, setAttrs, hj]
    · simp [checkOne, energyOne, setAttrs]

/-- The loop invariant. -/
def Inv (params : List String) (c : Conv) (s : Star) (nr : Nat) (modes : Nat → Mode) (st : St) : Prop :=
  ∀ j ∈ modeNrs nr, ScaledBy params (st.factors j) (modes j).attrs (st.modes j).attrs ∧ FlagRight c s st j

theorem refine_inv (hnd : params.Nodup) (nr : Nat) (modes : Nat → Mode) (st st' : St) (i : Nat)
    (h : refineOne params E c s st i = some st') (hi : Inv params c s nr modes st) :
    Inv params c s nr modes st' ∧ st'.iterNr = st.iterNr := by
  obtain ⟨⟨f, h1, h2⟩, h3, h4, h5⟩ := refineOne_spec hnd st st' i h
  refine ⟨?_, h5⟩
  intro j hj
  by_cases hji : j = i
  · subst hji
    rw [h1]
    exact ⟨scaledBy_trans _ _ _ _ _ _ (hi j hj).1 h2, h4⟩
  · obtain ⟨a, b, d⟩ := h3 j hji
    simp only [FlagRight, a, b, d]
    exact hi j hj

theorem refine_fold (hnd : params.Nodup) (nr : Nat) (modes : Nat → Mode) (l : List Nat) (st st' : St)
    (h : l.foldlM (refineOne params E c s) st = some st') (hi : Inv params c s nr modes st) :
    Inv params c s nr modes st' ∧ st'.iterNr = st.iterNr := by
  induction l generalizing st with
  | nil => simp at h; subst h; exact ⟨hi, rfl⟩
  | cons i t ih =>
    rw [List.foldlM_cons, Option.bind_eq_bind] at h
    cases h1 : refineOne params E c s st i with
    | none => simp [h1] at h
    | some st1 =>
      rw [h1, Option.bind_some] at h
      obtain ⟨a, b⟩ := refine_inv hnd nr modes st st1 i h1 hi
      obtain ⟨d, e⟩ := ih st1 h a
      exact ⟨d, e.trans b⟩

theorem loop_inv (hnd : params.Nodup) (nr : Nat) (modes : Nat → Mode) (n : Nat) (bound : Bool) (st st' : St)
    (h : loop params E c s nr n bound st = some st') (hi : Inv params c s nr modes st) :
    Inv params c s nr modes st' ∧ st'.iterNr ≤ st.iterNr + n ∧
      (anyCheck nr st' = true → st'.iterNr = st.iterNr + n) := by
  induction n generalizing bound st with
  | zero =>
    cases bound with
    | false => simp [loop] at h
    | true => simp [loop] at h; subst h; exact ⟨hi, by omega, fun _ => by omega⟩
  | succ n ih =>
    rw [loop] at h
    split_ifs at h with hc
    · simp at h; subst h
      exact ⟨hi, by omega, fun h => by rw [hc] at h; cases h⟩
    · simp only [Option.bind_eq_bind] at h
      cases h1 : ((modeNrs nr).filter st.check).foldlM (refineOne params E c s)
          { st with iterNr := st.iterNr + 1 } with
      | none => simp [h1] at h
      | some st1 =>
        rw [h1, Option.bind_some] at h
        obtain ⟨a, b⟩ := refine_fold hnd nr modes _ { st with iterNr := st.iterNr + 1 } st1 h1 hi
        obtain ⟨d, e, f⟩ := ih true st1 h a
        simp only at b
        exact ⟨d, by omega, fun hh => by have := f hh; omega⟩

theorem modeNrs_nodup (nr : Nat) : (modeNrs nr).Nodup :=
  List.nodup_range.map (fun a b h => by simpa using h)

theorem mem_modeNrs (nr i : Nat) : i ∈ modeNrs nr ↔ 1 ≤ i ∧ i ≤ nr := by
  simp only [modeNrs, List.mem_map, List.mem_range]
  constructor
  · rintro ⟨a, h, rfl⟩; omega
  · rintro ⟨h1, h2⟩; exact ⟨i - 1, by omega, by omega⟩

/-- State before the refinement. -/
theorem call_split (hnd : params.Nodup) (convention : String) (nr : Nat) (iterative : Bool)
    (maxIter : Nat) (modes : Nat → Mode) (st : St)
    (h : call params E s convention nr iterative maxIter modes = some st) :
    ∃ c st0, (nr ≠ 0 → convOf convention = some c) ∧ Inv params c s nr modes st0 ∧ st0.iterNr = 0 ∧
      (∀ j ∈ modeNrs nr, st0.factors j = factor c s (modes j) ∧
        ∃ k, ((st0.modes j).energy, (st0.modes j).classic) = E k j (st0.modes j).attrs) ∧
      (if iterative && anyCheck nr st0 then loop params E c s nr maxIter false st0 else some st0) = some st := by
  simp only [call, Option.bind_eq_bind] at h
  cases hc : (if nr = 0 then some Conv.lee2012 else convOf convention) with
  | none => simp [hc] at h
  | some c =>
    rw [hc, Option.bind_some] at h
    cases h1 : (modeNrs nr).foldlM (initOne params c s) ⟨modes, fun _ => 0, fun _ => true, 0, 0⟩ with
    | none => simp [h1] at h
    | some st1 =>
      rw [h1, Option.bind_some] at h
      obtain ⟨a1, a2, a3, a4⟩ := init_fold hnd _ (modeNrs_nodup nr) _ _ h1
      obtain ⟨b1, b2, b3, b4, b5⟩ := energy_fold (E := E) (modeNrs nr) (modeNrs_nodup nr) st1
      obtain ⟨c1, c2, c3, c4, c5⟩ := check_fold (c := c) (s := s) (modeNrs nr)
        ((modeNrs nr).foldl (energyOne E) st1) (by intro j _; rw [b3, a3]) (modeNrs_nodup nr)
      refine ⟨c, _, ?_, ?_, ?_, ?_, h⟩
      · intro hn; simpa [hn] using hc
      · intro j hj
        refine ⟨?_, c5 j hj⟩
        rw [c2, b2, c1, b1 j, (a1 j hj).1]
        exact (a1 j hj).2
      · rw [c3, b4, a4]
      · intro j hj
        refine ⟨by rw [c2, b2, (a1 j hj).1], ?_⟩
        obtain ⟨k, hk⟩ := b5 j hj
        exact ⟨k, by rw [c1, hk, b1 j]⟩

/-- C39: the stored normalising factor is the total factor applied to each radial function of the mode,
all other attributes are untouched; for every way of computing energies and every refinement history. -/
theorem C39_factor_is_total_factor (hnd : params.Nodup) (convention : String) (nr : Nat)
    (iterative : Bool) (maxIter : Nat) (modes : Nat → Mode) (st : St)
    (h : call params E s convention nr iterative maxIter modes = some st) (i : Nat) (h1 : 1 ≤ i) (h2 : i ≤ nr) :
    ScaledBy params (st.factors i) (modes i).attrs (st.modes i).attrs := by
  obtain ⟨c, st0, _, hi, _, _, hst⟩ := call_split hnd convention nr iterative maxIter modes st h
  have hm := (mem_modeNrs nr i).2 ⟨h1, h2⟩
  split_ifs at hst with hb
  · exact ((loop_inv hnd nr modes _ _ _ _ hst hi).1 i hm).1
  · cases hst; exact (hi i hm).1

/-- C39 (partial: with a budget of 0 the code raises instead, see below): the loop stays within its budget; a mode is flagged exactly when it misses the convention's target,
and modes are left flagged only when refinement was not requested or the budget was used up. -/
theorem C39_refinement_budget_partial (hnd : params.Nodup) (convention : String) (nr : Nat)
    (iterative : Bool) (maxIter : Nat) (modes : Nat → Mode) (st : St)
    (h : call params E s convention nr iterative maxIter modes = some st) :
    st.iterNr ≤ maxIter ∧ (iterative = false → st.iterNr = 0) ∧
    (nr ≠ 0 → ∃ c, convOf convention = some c ∧ ∀ i, 1 ≤ i → i ≤ nr →
      ((st.check i = true ↔ quantity c (st.modes i) ≠ target c s) ∧
       (st.check i = true → iterative = false ∨ st.iterNr = maxIter))) := by
  obtain ⟨c, st0, hc, hi, h0, _, hst⟩ := call_split hnd convention nr iterative maxIter modes st h
  split_ifs at hst with hb
  · obtain ⟨a, b, d⟩ := loop_inv hnd nr modes _ _ _ _ hst hi
    simp only [Bool.and_eq_true] at hb
    refine ⟨by omega, fun h => by rw [h] at hb; simp at hb, fun hn => ⟨c, hc hn, ?_⟩⟩
    intro i h1 h2
    have hm := (mem_modeNrs nr i).2 ⟨h1, h2⟩
    refine ⟨(a i hm).2, fun hf => Or.inr ?_⟩
    have := d (by rw [anyCheck, List.any_eq_true]; exact ⟨i, hm, hf⟩)
    omega
  · cases hst
    refine ⟨by omega, fun _ => h0, fun hn => ⟨c, hc hn, ?_⟩⟩
    intro i h1 h2
    have hm := (mem_modeNrs nr i).2 ⟨h1, h2⟩
    refine ⟨(hi i hm).2, fun hf => Or.inl ?_⟩
    simp only [Bool.and_eq_true, not_and, Bool.not_eq_true] at hb
    cases iterative with
    | false => rfl
    | true =>
      have := hb rfl
      rw [anyCheck, List.any_eq_false] at this
      exact absurd hf (this i hm)

/-- The stored energies are those of the current radial functions. -/
def Current (E : Oracle) (nr : Nat) (st : St) : Prop :=
  ∀ j ∈ modeNrs nr, ∃ k, ((st.modes j).energy, (st.modes j).classic) = E k j (st.modes j).attrs

theorem refine_current (nr : Nat) (st st' : St) (i : Nat)
    (h : refineOne params E c s st i = some st') (hi : Current E nr st) : Current E nr st' := by
  simp only [refineOne, Option.bind_eq_bind] at h
  cases hs : scaleAll params (factor c s (st.modes i)) (st.modes i).attrs with
  | none => simp [hs] at h
  | some a =>
    simp only [hs, Option.bind_some, Option.pure_def, Option.some.injEq] at h
    subst h
    intro j hj
    by_cases hji : j = i
    · subst hji
      exact ⟨st.clock, by simp [checkOne, energyOne, setAttrs]⟩
    · obtain ⟨k, hk⟩ := hi j hj
      exact ⟨k, by simpa [checkOne, energyOne, setAttrs, hji] using hk⟩

theorem refine_fold_current (nr : Nat) (l : List Nat) (st st' : St)
    (h : l.foldlM (refineOne params E c s) st = some st') (hi : Current E nr st) : Current E nr st' := by
  induction l generalizing st with
  | nil => simp at h; subst h; exact hi
  | cons i t ih =>
    rw [List.foldlM_cons, Option.bind_eq_bind] at h
    cases h1 : refineOne params E c s st i with
    | none => simp [h1] at h
    | some st1 =>
      rw [h1, Option.bind_some] at h
      exact ih st1 h (refine_current nr st st1 i h1 hi)

theorem loop_current (nr n : Nat) (bound : Bool) (st st' : St)
    (h : loop params E c s nr n bound st = some st') (hi : Current E nr st) : Current E nr st' := by
  induction n generalizing bound st with
  | zero =>
    cases bound with
    | false => simp [loop] at h
    | true => simp [loop] at h; subst h; exact hi
  | succ n ih =>
    rw [loop] at h
    split_ifs at h with hc
    · simp at h; subst h; exact hi
    · simp only [Option.bind_eq_bind] at h
      cases h1 : ((modeNrs nr).filter st.check).foldlM (refineOne params E c s)
          { st with iterNr := st.iterNr + 1 } with
      | none => simp [h1] at h
      | some st1 =>
        rw [h1, Option.bind_some] at h
        exact ih true st1 h
          (refine_fold_current nr _ { st with iterNr := st.iterNr + 1 } st1 h1 hi)

/-- C39: the energy and classic norm left behind for every mode were computed from the radial functions left
behind, whatever the number of refinements. -/
theorem C39_energy_is_current (hnd : params.Nodup) (convention : String) (nr : Nat)
    (iterative : Bool) (maxIter : Nat) (modes : Nat → Mode) (st : St)
    (h : call params E s convention nr iterative maxIter modes = some st) (i : Nat) (h1 : 1 ≤ i) (h2 : i ≤ nr) :
    ∃ k, ((st.modes i).energy, (st.modes i).classic) = E k i (st.modes i).attrs := by
  obtain ⟨c, st0, _, _, _, hcur, hst⟩ := call_split hnd convention nr iterative maxIter modes st h
  have hm := (mem_modeNrs nr i).2 ⟨h1, h2⟩
  have h0 : Current E nr st0 := fun j hj => (hcur j hj).2
  split_ifs at hst with hb
  · exact loop_current nr _ _ _ _ hst h0 i hm
  · cases hst; exact h0 i hm

/-! ### Exact arithmetic -/

/-- The radial integration is homogeneous (it is linear, C01–C06). -/
def Homogeneous (radint : List ℝ → ℝ) : Prop := ∀ (k : ℝ) l, radint (l.map (k * ·)) = k * radint l

theorem radIntegrand_scale (d : EnergyData) (k : ℝ) (f : List ℝ) :
    radIntegrand d (f.map (k * ·)) = (radIntegrand d f).map (k ^ 2 * ·) := by
  simp only [radIntegrand]
  generalize List.zipWith (fun x r => x ^ 2 * r) d.x d.rho = p
  induction p generalizing f with
  | nil => simp
  | cons a t ih =>
    cases f with
    | nil => simp
    | cons b u => simp only [List.map_cons, List.zipWith_cons_cons, ih, List.cons.injEq, and_true]; ring

theorem exact_scale (pi : ℝ) (data : Nat → EnergyData) (k k' i : Nat) (f : ℝ)
    (a b : String → Option (List ℝ)) (params : List String) (h1 : "_x_z_1" ∈ params)
    (h2 : "_x_z_2_over_c_1_omega" ∈ params) (hs : ScaledBy params f a b) (hh : Homogeneous (data i).radint) :
    (exactOracle pi data k i b).1 = f ^ 2 * (exactOracle pi data k' i a).1 ∧
    (exactOracle pi data k i b).2 = f ^ 2 * (exactOracle pi data k' i a).2 := by
  have e1 : (b "_x_z_1").getD [] = ((a "_x_z_1").getD []).map (f * ·) := by
    rw [hs, if_pos h1]; cases a "_x_z_1" <;> rfl
  have e2 : (b "_x_z_2_over_c_1_omega").getD [] = ((a "_x_z_2_over_c_1_omega").getD []).map (f * ·) := by
    rw [hs, if_pos h2]; cases a "_x_z_2_over_c_1_omega" <;> rfl
  simp only [exactOracle, e1, e2, radIntegrand_scale, hh _ _]
  constructor <;> ring

/-- C39: in exact arithmetic, with either enumeration of radial functions, every mode ends exactly on the
target without any refinement, for every star and all modes of positive norm. -/
theorem C39_energy_hits_target (convention : String) (nr : Nat) (iterative : Bool)
    (maxIter : Nat) (modes : Nat → Mode) (pi : ℝ) (data : Nat → EnergyData)
    (hpar : params = enumRadial ∨ params = enumRadialPoly)
    (hG : 0 < s.G) (hM : 0 < s.M) (hR : 0 < s.R)
    (hc : convOf convention = some c)
    (hattr : ∀ i, 1 ≤ i → i ≤ nr → ∀ n ∈ params, ((modes i).attrs n).isSome)
    (hh : ∀ i, Homogeneous (data i).radint)
    (hE : ∀ i, 1 ≤ i → i ≤ nr → ((modes i).energy, (modes i).classic) = exactOracle pi data 0 i (modes i).attrs)
    (hpos : ∀ i, 1 ≤ i → i ≤ nr → 0 < quantity c (modes i)) :
    ∃ st, call params (exactOracle pi data) s convention nr iterative maxIter modes = some st ∧
      st.iterNr = 0 ∧ ∀ i, 1 ≤ i → i ≤ nr → quantity c (st.modes i) = target c s ∧ st.check i = false := by
  have hnd : params.Nodup := by rcases hpar with rfl | rfl <;> decide
  have hm1 : "_x_z_1" ∈ params := by rcases hpar with rfl | rfl <;> decide
  have hm2 : "_x_z_2_over_c_1_omega" ∈ params := by rcases hpar with rfl | rfl <;> decide
  have htpos : 0 < target c s := by cases c <;> simp only [target] <;> positivity
  -- the call with iteration switched off succeeds
  have htot : ∀ (c : Conv) (l : List Nat), (∀ i ∈ l, i ∈ modeNrs nr) → ∀ st : St,
      (∀ i ∈ modeNrs nr, ∀ n ∈ params, ((st.modes i).attrs n).isSome) →
      ∃ st', l.foldlM (initOne params c s) st = some st' := by
    intro c l
    induction l with
    | nil => intro _ st _; exact ⟨st, rfl⟩
    | cons i t ih =>
      intro hl st hst
      obtain ⟨b, hb⟩ := scaleAll_total params (factor c s (st.modes i)) (st.modes i).attrs
        (hst i (hl i List.mem_cons_self))
      have h1 : initOne params c s st i = some (setAttrs
          { st with factors := Function.update st.factors i (factor c s (st.modes i)) } i b) := by
        simp [initOne, hb]
      rw [List.foldlM_cons, h1]
      apply ih (fun j hj => hl j (List.mem_cons_of_mem _ hj))
      intro j hj n hn
      by_cases hji : j = i
      · subst hji
        have := scaleAll_spec params hnd _ _ _ hb n
        simp only [setAttrs, Function.update_self, this, if_pos hn, Option.isSome_map]
        exact hst j hj n hn
      · simpa [setAttrs, hji] using hst j hj n hn
  have hcall : ∃ st, call params (exactOracle pi data) s convention nr false maxIter modes = some st := by
    obtain ⟨c', hc'⟩ : ∃ c', (if nr = 0 then some Conv.lee2012 else convOf convention) = some c' := by
      split_ifs
      · exact ⟨_, rfl⟩
      · exact ⟨c, hc⟩
    obtain ⟨st1, h1⟩ := htot c' (modeNrs nr) (fun _ h => h) ⟨modes, fun _ => 0, fun _ => true, 0, 0⟩ (by
      intro i hi n hn
      have := (mem_modeNrs nr i).1 hi
      exact hattr i this.1 this.2 n hn)
    simp [call, hc', h1]
  obtain ⟨st, hst⟩ := hcall
  obtain ⟨c', st0, e1, e2, e3, e4, e5⟩ := call_split hnd convention nr false maxIter modes st hst
  simp only [Bool.false_and, Bool.false_eq_true, if_false, Option.some.injEq] at e5
  subst e5
  have hq : ∀ i, 1 ≤ i → i ≤ nr → quantity c (st0.modes i) = target c s ∧ st0.check i = false := by
    intro i h1 h2
    have hcc : c' = c := by
      have := e1 (by omega)
      rw [hc] at this; exact (Option.some.inj this).symm
    subst hcc
    have hm := (mem_modeNrs nr i).2 ⟨h1, h2⟩
    obtain ⟨f1, k, f2⟩ := e4 i hm
    obtain ⟨g1, g2⟩ := e2 i hm
    rw [f1] at g1
    have hs := exact_scale pi data k 0 i _ _ _ params hm1 hm2 g1 (hh i)
    rw [← f2, ← hE i h1 h2] at hs
    simp only at hs
    have hpos' := hpos i h1 h2
    have hqt : quantity c' (st0.modes i) = target c' s := by
      cases c' with
      | lee2012 =>
        simp only [quantity, factor, target] at *
        rw [hs.1, Real.sq_sqrt (by positivity)]
        field_simp
      | schenk2002 =>
        simp only [quantity, factor, target] at *
        rw [hs.2, Real.sq_sqrt (by positivity)]
        field_simp
    refine ⟨hqt, ?_⟩
    cases hch : st0.check i with
    | false => rfl
    | true => exact absurd hqt (g2.1 hch)
  -- switching iteration on changes nothing since no flag is set
  have hany : anyCheck nr st0 = false := by
    rw [anyCheck, List.any_eq_false]
    intro i hi
    have := (mem_modeNrs nr i).1 hi
    rw [(hq i this.1 this.2).2]; simp
  refine ⟨st0, ?_, e3, hq⟩
  cases iterative with
  | false => exact hst
  | true =>
    simp only [call, Option.bind_eq_bind] at hst ⊢
    cases hc2 : (if nr = 0 then some Conv.lee2012 else convOf convention) with
    | none => simp [hc2] at hst
    | some c2 =>
      rw [hc2] at hst
      rw [Option.bind_some] at hst ⊢
      cases h1 : (modeNrs nr).foldlM (initOne params c2 s) ⟨modes, fun _ => 0, fun _ => true, 0, 0⟩ with
      | none => simp [h1] at hst
      | some st1 =>
        rw [h1, Option.bind_some] at hst
        rw [Option.bind_some]
        simp only [Bool.false_and, Bool.false_eq_true, if_false, Option.some.injEq] at hst
        rw [hst, Bool.true_and, if_neg (by simp [hany])]

/-- C39 (what fails): whenever a mode misses the target after the initial normalisation, requesting
refinement with a budget of 0 iterations raises instead of stopping. -/
theorem C39_zero_budget_raises (convention : String) (nr maxIter : Nat) (modes : Nat → Mode)
    (st : St) (h : call params E s convention nr false maxIter modes = some st)
    (hflag : ∃ i, 1 ≤ i ∧ i ≤ nr ∧ st.check i = true) :
    call params E s convention nr true 0 modes = none := by
  obtain ⟨i, h1, h2, h3⟩ := hflag
  have hany : anyCheck nr st = true := by
    rw [anyCheck, List.any_eq_true]; exact ⟨i, (mem_modeNrs nr i).2 ⟨h1, h2⟩, h3⟩
  simp only [call, Option.bind_eq_bind] at h ⊢
  cases hc2 : (if nr = 0 then some Conv.lee2012 else convOf convention) with
  | none => simp
  | some c2 =>
    rw [hc2] at h
    rw [Option.bind_some] at h ⊢
    cases h1 : (modeNrs nr).foldlM (initOne params c2 s) ⟨modes, fun _ => 0, fun _ => true, 0, 0⟩ with
    | none => simp
    | some st1 =>
      rw [h1, Option.bind_some] at h
      rw [Option.bind_some]
      simp only [Bool.false_and, Bool.false_eq_true, if_false, Option.some.injEq] at h
      rw [h, Bool.true_and, if_pos hany]
      rfl

/-- C39 (what fails): under the Schenk convention the target `M R²` is imposed on the *dimensionless* norm;
the physical norm `∫ρ|ξ|² dV = ρ_norm R⁵ · classic` then equals `M R²` only if `ρ_norm R⁵ = 1`. -/
theorem C39_schenk_dimension_wrong (normRho classic : ℝ) (hM : 0 < s.M) (hR : 0 < s.R)
    (h : classic = target .schenk2002 s) :
    normRho * s.R ^ 5 * classic = s.M * s.R ^ 2 ↔ normRho * s.R ^ 5 = 1 := by
  rw [h, target]
  have : s.M * s.R ^ 2 ≠ 0 := by positivity
  constructor
  · intro h
    exact mul_right_cancel₀ this (by rw [h, one_mul])
  · intro h; rw [h, one_mul]

/-- Non-vacuity: a homogeneous integration, a mode with all attributes and positive energy. -/
example : Homogeneous List.sum := by
  intro k l
  induction l with
  | nil => simp
  | cons a t ih => simp only [List.map_cons, List.sum_cons, ih]; ring
example : convOf "lee2012" = some .lee2012 := by
  have : "lee2012".toUpper = "LEE2012" := by decide +kernel
  simp [convOf, this]
example : enumRadial.Nodup ∧ enumRadialPoly.Nodup := by decide
example : 0 < (exactOracle 3 (fun _ => ⟨[1, 2], [1, 1], List.sum, 1, 1, 1, 0, 0, 1, 1, 1⟩) 0 1
    (fun _ => some [1, 1])).1 := by
  simp [exactOracle, radIntegrand]; norm_num

/-- C39: the name of the convention is read in either case; the two names select the two conventions, and nothing else selects one. -/
theorem C39_convention_names (name : String) :
    (convOf name = some .lee2012 ↔ name.toUpper = "LEE2012") ∧ (convOf name = some .schenk2002 ↔ name.toUpper = "SCHENK2002") ∧
      (convOf name = none ↔ name.toUpper ≠ "LEE2012" ∧ name.toUpper ≠ "SCHENK2002") := by
  have ne : "SCHENK2002" ≠ "LEE2012" := by decide
  have ne' : "LEE2012" ≠ "SCHENK2002" := by decide
  unfold convOf
  by_cases h : name.toUpper = "LEE2012"
  · simp [h]
  · by_cases h' : name.toUpper = "SCHENK2002" <;> simp [h, h']

/-- Non-vacuity: all three cases occur. -/
example : "Schenk2002".toUpper = "SCHENK2002" ∧ "lee2012".toUpper = "LEE2012" ∧ convOf "lee" = none := by
  have h : "lee".toUpper = "LEE" := by decide +kernel
  refine ⟨by decide +kernel, by decide +kernel, ?_⟩
  simp [convOf, h]

end
end Verif.Norm
