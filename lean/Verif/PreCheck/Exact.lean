import Verif.PreCheck.Props
import Mathlib.Tactic.IntervalCases
/-! # C27: exactly the triads for which the check is right -/
namespace Verif.PreCheck

theorem mkObj_one (mode : Int → Mode) (N : Nat) (r : Req) (hr : r.InRange N) :
    mkObj (gyreOf mode N) (some [r.nums]) (some [.flags r.flags]) =
      (r.nums.mapM (fun g => pyGet r.nums (g - 1))).map fun u =>
        ⟨[r.nums], [.flags r.flags], [r.nums.map fun g => (mode g).m], [r.nums.map fun g => (mode g).l],
          [u.map fun g => kGrav (mode g).l (mode g).m]⟩ := by
  have hl := attrList_eq mode N Mode.l r.nums hr
  have hm := attrList_eq mode N Mode.m r.nums hr
  unfold mkObj
  simp only [defTriads, defConj, List.mapM_cons, List.mapM_nil, hl, hm, Option.bind_eq_bind, Option.bind_some,
    Option.pure_def, List.zip_cons_cons, List.zip_nil_right]
  rw [merOrders_eq (fun g => (mode g).l) (fun g => (mode g).m)]
  cases r.nums.mapM (fun g => pyGet r.nums (g - 1)) <;> rfl

theorem pyGet_three (a b c g : Int) (hg : 3 < g) : pyGet [a, b, c] (g - 1) = none := by
  unfold pyGet
  rw [if_pos (by omega)]
  obtain ⟨k, hk⟩ := Int.eq_ofNat_of_zero_le (show 0 ≤ g - 1 by omega)
  rw [hk]
  apply List.getElem?_eq_none
  simp
  omega

/-- **C27**, when the check is defined: a triad of existing modes is refused with an `IndexError` exactly if it has a mode whose
number is above three, whatever the modes are. -/
theorem C27_defined_iff (mode : Int → Mode) (N : Nat) (r : Req) (hr : r.InRange N) :
    (mkObj (gyreOf mode N) (some [r.nums]) (some [.flags r.flags])).isSome ↔ ∀ g ∈ r.nums, g ≤ 3 := by
  rw [mkObj_one mode N r hr, Option.isSome_map]
  obtain ⟨⟨a, b, c⟩, f⟩ := r
  have h1 := hr a (by simp [Req.nums])
  have h2 := hr b (by simp [Req.nums])
  have h3 := hr c (by simp [Req.nums])
  simp only [Req.nums, List.mapM_cons, List.mapM_nil, List.mem_cons, List.not_mem_nil, or_false, forall_eq_or_imp, forall_eq]
  have some_of : ∀ g : Int, 1 ≤ g → g ≤ 3 → (pyGet [a, b, c] (g - 1)).isSome := by
    intro g hg1 hg3
    have : g = 1 ∨ g = 2 ∨ g = 3 := by omega
    rcases this with rfl | rfl | rfl <;> rfl
  constructor
  · intro h
    by_contra hn
    have : 3 < a ∨ 3 < b ∨ 3 < c := by omega
    rcases this with hh | hh | hh
    · rw [pyGet_three a b c a hh] at h
      simp at h
    · rw [pyGet_three a b c b hh] at h
      cases pyGet [a, b, c] (a - 1) <;> simp at h
    · rw [pyGet_three a b c c hh] at h
      cases pyGet [a, b, c] (a - 1) <;> cases pyGet [a, b, c] (b - 1) <;> simp at h
  · rintro ⟨ha, hb, hc⟩
    obtain ⟨x, hx⟩ := Option.isSome_iff_exists.1 (some_of a h1.1 ha)
    obtain ⟨y, hy⟩ := Option.isSome_iff_exists.1 (some_of b h2.1 hb)
    obtain ⟨z, hz⟩ := Option.isSome_iff_exists.1 (some_of c h3.1 hc)
    rw [hx, hy, hz]
    rfl

/-- Modes without azimuthal dependence, of which only mode `k` has an odd meridional order. -/
def oddMode (k : Int) : Int → Mode := fun g => ⟨if g = k then 1 else 0, 0⟩

/-- **C27**, the exact set of triads (partial: it is not the set of all triads): a triad of existing modes is checked rightly for every
choice of the degrees and orders if and only if its mode numbers, read as positions inside the triad, give back the same modes. These
are the fifteen triads of `C27_exact_list_partial`. -/
theorem C27_exact_partial (N : Nat) (r : Req) (hr : r.InRange N) :
    (∀ mode : Int → Mode, ∃ o, mkObj (gyreOf mode N) (some [r.nums]) (some [.flags r.flags]) = some o ∧
      (genericCheck o true = some (.inl true) ↔ (r.triad mode).AzimuthalRule ∧ (r.triad mode).MeridionalRule)) ↔
    r.SelfIndexed := by
  classical
  constructor
  swap
  · intro hs mode
    obtain ⟨o, h1, -, -, h4⟩ := C27_selection_rules_partial mode N [r] (by simp) (by simpa using hr) (by simpa using hs)
    refine ⟨o, h1, ?_⟩
    rw [h4]
    simp
  intro h
  have hle : ∀ g ∈ r.nums, g ≤ 3 := by
    obtain ⟨o, ho, -⟩ := h (fun _ => ⟨0, 0⟩)
    exact (C27_defined_iff _ N r hr).1 (by rw [ho]; rfl)
  have key : ∀ k : Int, ∃ u, r.nums.mapM (fun g => pyGet r.nums (g - 1)) = some u ∧
      ((u.map fun g => if g = k then (1 : Int) else 0).sum % 2 = (r.nums.map fun g => if g = k then (1 : Int) else 0).sum % 2) := by
    intro k
    obtain ⟨o, ho, hc⟩ := h (oddMode k)
    rw [mkObj_one _ N r hr] at ho
    obtain ⟨u, hu, rfl⟩ := Option.map_eq_some_iff.1 ho
    refine ⟨u, hu, ?_⟩
    have e : ∀ l : List Int, (l.map fun g => kGrav (oddMode k g).l (oddMode k g).m) = l.map fun g => if g = k then (1 : Int) else 0 := by
      intro l
      apply List.map_congr_left
      intro g _
      simp [kGrav, oddMode]
    have haz : (r.triad (oddMode k)).AzimuthalRule := by simp [Triad.AzimuthalRule, Req.triad, oddMode]
    have hmer : (r.triad (oddMode k)).MeridionalRule ↔ (r.nums.map fun g => if g = k then (1 : Int) else 0).sum % 2 = 0 := by
      simp only [Triad.MeridionalRule, Req.triad, Req.nums, oddMode, List.map_cons, List.map_nil, List.sum_cons, List.sum_nil,
        Int.even_iff, abs_zero, sub_zero, add_zero, add_assoc]
    have hg : genericCheck ⟨[r.nums], [.flags r.flags], [r.nums.map fun g => (oddMode k g).m], [r.nums.map fun g => (oddMode k g).l],
          [u.map fun g => kGrav (oddMode k g).l (oddMode k g).m]⟩ true = some (.inl true) ↔
        (u.map fun g => if g = k then (1 : Int) else 0).sum % 2 = 0 := by
      rw [e]
      have ha : azimuthal ⟨[r.nums], [.flags r.flags], [r.nums.map fun g => (oddMode k g).m], [r.nums.map fun g => (oddMode k g).l],
          [u.map fun g => if g = k then (1 : Int) else 0]⟩ 0 = some true := by
        obtain ⟨⟨a, b, c⟩, ⟨f1, f2, f3⟩⟩ := r
        simp [azimuthal, oddMode, Req.flags, Req.nums, sgn_conj]
      simp only [genericCheck, checkList, List.length_singleton, List.range_one, List.mapM_cons, List.mapM_nil, ha, Option.bind_eq_bind,
        Option.bind_some, Option.pure_def, if_true, meridional, List.getElem?_cons_zero]
      simp
    rw [hg] at hc
    have := hc.trans ((and_iff_right haz).trans hmer)
    omega
  obtain ⟨⟨a, b, c⟩, f⟩ := r
  have hb : ∀ g ∈ [a, b, c], g = 1 ∨ g = 2 ∨ g = 3 := fun g hg => by
    have h1 := hr g hg
    have h2 := hle g hg
    omega
  have ha1 := hb a (by simp)
  have hb1 := hb b (by simp)
  have hc1 := hb c (by simp)
  have k1 := key 1
  have k2 := key 2
  have k3 := key 3
  clear key h hle hr hb
  unfold Req.SelfIndexed
  revert k1 k2 k3
  rcases ha1 with rfl | rfl | rfl <;> rcases hb1 with rfl | rfl | rfl <;> rcases hc1 with rfl | rfl | rfl <;>
    (intro k1 k2 k3
     first
       | exact ⟨_, rfl, by dsimp only [Req.nums]; decide⟩
       | (exfalso; obtain ⟨u, h1, h2⟩ := k1; cases h1; revert h2; dsimp only [Req.nums]; decide)
       | (exfalso; obtain ⟨u, h1, h2⟩ := k2; cases h1; revert h2; dsimp only [Req.nums]; decide)
       | (exfalso; obtain ⟨u, h1, h2⟩ := k3; cases h1; revert h2; dsimp only [Req.nums]; decide))

/-- The triads that are checked rightly. -/
def Spec.rightTriads : List (Int × Int × Int) :=
  [(1, 1, 1), (1, 1, 3), (1, 2, 1), (1, 2, 2), (1, 2, 3), (1, 3, 2), (1, 3, 3), (2, 1, 3), (2, 2, 2), (2, 2, 3), (2, 3, 1), (3, 1, 2),
   (3, 2, 1), (3, 2, 3), (3, 3, 3)]

/-- **C27**, partial: the triads that are checked rightly, by name. -/
theorem C27_exact_list_partial (N : Nat) (r : Req) (hr : r.InRange N) :
    (∀ mode : Int → Mode, ∃ o, mkObj (gyreOf mode N) (some [r.nums]) (some [.flags r.flags]) = some o ∧
      (genericCheck o true = some (.inl true) ↔ (r.triad mode).AzimuthalRule ∧ (r.triad mode).MeridionalRule)) ↔
    r.n ∈ Spec.rightTriads := by
  rw [C27_exact_partial N r hr]
  obtain ⟨⟨a, b, c⟩, f⟩ := r
  constructor
  · rintro ⟨u, hu, hp⟩
    have hle : ∀ g ∈ [a, b, c], g ≤ 3 := by
      have := (C27_defined_iff (fun _ => ⟨0, 0⟩) N _ hr).1 (by rw [mkObj_one _ N _ hr, hu]; rfl)
      exact this
    have hb : ∀ g ∈ [a, b, c], g = 1 ∨ g = 2 ∨ g = 3 := fun g hg => by
      have h1 := hr g hg
      have h2 := hle g hg
      omega
    have ha1 := hb a (by simp)
    have hb1 := hb b (by simp)
    have hc1 := hb c (by simp)
    clear hle hb hr
    revert hu hp
    rcases ha1 with rfl | rfl | rfl <;> rcases hb1 with rfl | rfl | rfl <;> rcases hc1 with rfl | rfl | rfl <;>
      (intro hu hp
       first
         | (show (_, _, _) ∈ Spec.rightTriads; decide)
         | (exfalso; cases hu; revert hp; dsimp only [Req.nums]; decide))
  · intro h
    simp only [Spec.rightTriads, List.mem_cons, Prod.mk.injEq, List.not_mem_nil, or_false] at h
    rcases h with h | h | h | h | h | h | h | h | h | h | h | h | h | h | h <;> obtain ⟨rfl, rfl, rfl⟩ := h <;>
      exact ⟨_, rfl, by dsimp only [Req.nums]; decide⟩

end Verif.PreCheck
