import Verif.PreCheck.Model
import Verif.Common
import Mathlib.Tactic.Linarith
import Mathlib.Algebra.Group.Int.Even
import Mathlib.Algebra.BigOperators.Group.List.Basic
/-! # C27: selection rules -/
namespace Verif.PreCheck

/-! ## Specification -/

/-- A triad of physical modes together with the conjugation flag of each mode. -/
structure Triad where
  a : Mode
  b : Mode
  c : Mode
  ca : Bool
  cb : Bool
  cc : Bool

/-- The sign a conjugation flag gives to an azimuthal order. -/
def sgn (c : Bool) : Int := if c then -1 else 1

/-- The azimuthal selection rule. -/
def Triad.AzimuthalRule (t : Triad) : Prop :=
  sgn t.ca * t.a.m + sgn t.cb * t.b.m + sgn t.cc * t.c.m = 0

/-- The meridional selection rule. -/
def Triad.MeridionalRule (t : Triad) : Prop :=
  Even ((t.a.l - |t.a.m|) + (t.b.l - |t.b.m|) + (t.c.l - |t.c.m|))

/-- A request: three mode numbers (1-based) and three flags. -/
structure Req where
  n : Int × Int × Int
  f : Bool × Bool × Bool

def Req.nums (r : Req) : List Int := [r.n.1, r.n.2.1, r.n.2.2]
def Req.flags (r : Req) : List Bool := [r.f.1, r.f.2.1, r.f.2.2]

/-- The triad a request denotes when mode number `g` is `mode g`. -/
def Req.triad (mode : Int → Mode) (r : Req) : Triad :=
  ⟨mode r.n.1, mode r.n.2.1, mode r.n.2.2, r.f.1, r.f.2.1, r.f.2.2⟩

/-- The mode numbers exist. -/
def Req.InRange (N : Nat) (r : Req) : Prop := ∀ g ∈ r.nums, 1 ≤ g ∧ g ≤ N

/-- The mode numbers, used as positions inside the triad itself, give back the same modes up to order. -/
def Req.SelfIndexed (r : Req) : Prop :=
  ∃ u, r.nums.mapM (fun g => pyGet r.nums (g - 1)) = some u ∧ u.Perm r.nums

/-! ## Lemmas -/

theorem pyGet_tab {α : Type} (N : Nat) (mode : Int → α) (g : Int) (h1 : 1 ≤ g) (h2 : g ≤ N) :
    pyGet (tab N (fun i => mode (i + 1))) (g - 1) = some (mode g) := by
  obtain ⟨k, hk⟩ := Int.eq_ofNat_of_zero_le (show 0 ≤ g - 1 by omega)
  unfold pyGet
  rw [if_pos (by omega), hk]
  have : k < N := by omega
  simp [tab, this]
  congr 1; omega

theorem mapM_some' {α β : Type} (l : List α) (f : α → Option β) (g : α → β)
    (h : ∀ x ∈ l, f x = some (g x)) : l.mapM f = some (l.map g) := by
  induction l with
  | nil => rfl
  | cons x xs ih =>
    rw [List.mapM_cons, h x (by simp), ih (fun y hy => h y (by simp [hy]))]; rfl

theorem pyGet_map {α β : Type} (l : List α) (f : α → β) (i : Int) :
    pyGet (l.map f) i = (pyGet l i).map f := by
  unfold pyGet; split
  · simp
  · simp only [List.length_map]; split <;> simp

theorem merOrders_eq (f h : Int → Int) (t : List Int) :
    merOrders (t.map f) (t.map h) t =
      (t.mapM (fun g => pyGet t (g - 1))).map (fun u => u.map (fun g => kGrav (f g) (h g))) := by
  unfold merOrders
  have key : ∀ s : List Int, s.mapM (fun nr => do
      let l ← pyGet (t.map f) (nr - 1)
      let m ← pyGet (t.map h) (nr - 1)
      pure (kGrav l m)) =
      (s.mapM (fun g => pyGet t (g - 1))).map (fun u => u.map (fun g => kGrav (f g) (h g))) := by
    intro s
    induction s with
    | nil => rfl
    | cons x xs ih =>
      rw [List.mapM_cons, List.mapM_cons, ih]
      simp only [pyGet_map]
      cases pyGet t (x - 1) with
      | none => rfl
      | some v =>
        simp only [Option.map_some]
        cases xs.mapM (fun g => pyGet t (g - 1)) <;> rfl
  exact key t

theorem sgn_conj (c : Bool) (m : Int) : conjerM c m = sgn c * m := by
  cases c <;> simp [conjerM, sgn]

/-- The modes as the list `gyre_ad`. -/
def gyreOf (mode : Int → Mode) (N : Nat) : List Mode := tab N (fun i => mode (i + 1))

theorem attrList_eq (mode : Int → Mode) (N : Nat) (attr : Mode → Int) (t : List Int)
    (h : ∀ g ∈ t, 1 ≤ g ∧ g ≤ N) :
    attrList (gyreOf mode N) attr t = some (t.map (fun g => attr (mode g))) := by
  apply mapM_some'
  intro g hg
  rw [gyreOf, pyGet_tab N mode g (h g hg).1 (h g hg).2]; rfl

/-- What the constructor stores for well-formed requests. -/
theorem mkObj_eq (mode : Int → Mode) (N : Nat) (rs : List Req) (hne : rs ≠ [])
    (hr : ∀ r ∈ rs, r.InRange N) (hs : ∀ r ∈ rs, r.SelfIndexed) :
    ∃ kl, mkObj (gyreOf mode N) (some (rs.map Req.nums)) (some (rs.map (fun r => .flags r.flags))) =
      some ⟨rs.map Req.nums, rs.map (fun r => .flags r.flags),
        rs.map (fun r => r.nums.map (fun g => (mode g).m)),
        rs.map (fun r => r.nums.map (fun g => (mode g).l)), kl⟩ ∧
      kl.length = rs.length ∧
      ∀ i (h : i < rs.length), ∃ u : List Int, kl[i]? = some (u.map (fun g => kGrav (mode g).l (mode g).m)) ∧
        u.Perm rs[i].nums := by
  have hc : defConj (some (rs.map (fun r => Conj.flags r.flags))) =
      some (rs.map (fun r => .flags r.flags)) := by
    cases rs with
    | nil => exact absurd rfl hne
    | cons r rs => rfl
  have hl : ∀ attr : Mode → Int, (rs.map Req.nums).mapM (attrList (gyreOf mode N) attr) =
      some (rs.map (fun r => r.nums.map (fun g => attr (mode g)))) := by
    intro attr
    rw [mapM_some' (rs.map Req.nums) _ (fun t => t.map (fun g => attr (mode g)))]
    · simp
    · intro t ht
      obtain ⟨r, hr', rfl⟩ := List.mem_map.1 ht
      exact attrList_eq mode N attr _ (hr r hr')
  have hz : ∀ l : List Req, (∀ r ∈ l, r.SelfIndexed) → ∃ kl,
      ((l.map Req.nums).zip ((l.map (fun r => r.nums.map (fun g => (mode g).l))).zip
        (l.map (fun r => r.nums.map (fun g => (mode g).m))))).mapM
        (fun x => merOrders x.2.1 x.2.2 x.1) = some kl ∧ kl.length = l.length ∧
      ∀ i (h : i < l.length), ∃ u : List Int, kl[i]? = some (u.map (fun g => kGrav (mode g).l (mode g).m)) ∧
        u.Perm l[i].nums := by
    intro l
    induction l with
    | nil => intro _; exact ⟨[], rfl, rfl, fun i h => absurd h (by simp)⟩
    | cons r l ih =>
      intro hs'
      obtain ⟨kl, h1, h2, h3⟩ := ih (fun r hr => hs' r (by simp [hr]))
      obtain ⟨u, hu, hp⟩ := hs' r (by simp)
      refine ⟨u.map (fun g => kGrav (mode g).l (mode g).m) :: kl, ?_, by simp [h2], ?_⟩
      · simp only [List.map_cons, List.zip_cons_cons, List.mapM_cons]
        rw [merOrders_eq (fun g => (mode g).l) (fun g => (mode g).m), hu, h1]
        rfl
      · intro i hi
        cases i with
        | zero => exact ⟨u, by simp, by simpa using hp⟩
        | succ i => simpa using h3 i (by simpa using hi)
  obtain ⟨kl, h1, h2, h3⟩ := hz rs hs
  refine ⟨kl, ?_, h2, h3⟩
  unfold mkObj
  simp only [defTriads, hc, hl, Option.bind_eq_bind, Option.bind_some, h1, Option.pure_def]

open Classical in
/-- **C27** (partial: the triads' mode numbers must index back into the triad, see
`C27_meridional_wrong`).  For every model with modes `1..N`, every list of triads with flags: the check
answers, triad by triad, the conjunction of the two selection rules. -/
theorem C27_selection_rules_partial (mode : Int → Mode) (N : Nat) (rs : List Req) (hne : rs ≠ [])
    (hr : ∀ r ∈ rs, r.InRange N) (hs : ∀ r ∈ rs, r.SelfIndexed) :
    ∃ o, mkObj (gyreOf mode N) (some (rs.map Req.nums)) (some (rs.map (fun r => .flags r.flags))) =
        some o ∧
      (∀ i (h : i < rs.length),
        azimuthal o i = some (decide (rs[i].triad mode).AzimuthalRule) ∧
        meridional o i = some (decide (rs[i].triad mode).MeridionalRule)) ∧
      genericCheck o false = some (.inr (rs.map (fun r =>
        decide ((r.triad mode).AzimuthalRule ∧ (r.triad mode).MeridionalRule)))) ∧
      genericCheck o true = some (.inl (decide (∀ r ∈ rs,
        (r.triad mode).AzimuthalRule ∧ (r.triad mode).MeridionalRule))) := by
  obtain ⟨kl, h1, h2, h3⟩ := mkObj_eq mode N rs hne hr hs
  refine ⟨_, h1, ?_⟩
  have hat : ∀ i (h : i < rs.length),
      azimuthal ⟨rs.map Req.nums, rs.map (fun r => .flags r.flags),
        rs.map (fun r => r.nums.map (fun g => (mode g).m)),
        rs.map (fun r => r.nums.map (fun g => (mode g).l)), kl⟩ i =
        some (decide (rs[i].triad mode).AzimuthalRule) ∧
      meridional ⟨rs.map Req.nums, rs.map (fun r => .flags r.flags),
        rs.map (fun r => r.nums.map (fun g => (mode g).m)),
        rs.map (fun r => r.nums.map (fun g => (mode g).l)), kl⟩ i =
        some (decide (rs[i].triad mode).MeridionalRule) := by
    intro i h
    constructor
    · simp only [azimuthal, List.getElem?_map, List.getElem?_eq_getElem h, Option.map_some]
      simp only [Option.bind_eq_bind, Option.bind_some, Option.pure_def, Option.some.injEq]
      rw [Bool.eq_iff_iff, beq_iff_eq, decide_eq_true_iff]
      simp only [Triad.AzimuthalRule, Req.triad, Req.flags, Req.nums,
        List.map_cons, List.map_nil, List.zipWith_cons_cons, List.zipWith_nil_right, List.sum_cons,
        List.sum_nil, sgn_conj]
      constructor <;> intro h <;> linarith
    · obtain ⟨u, hu, hp⟩ := h3 i h
      simp only [meridional, hu]
      simp only [Option.bind_eq_bind, Option.bind_some, Option.pure_def, Option.some.injEq]
      rw [Bool.eq_iff_iff]
      have := (hp.map (fun g => kGrav (mode g).l (mode g).m)).sum_eq
      rw [this]
      rw [beq_iff_eq, decide_eq_true_iff]
      simp only [Triad.MeridionalRule, Req.triad, Req.nums,
        List.map_cons, List.map_nil, List.sum_cons, List.sum_nil, kGrav, Int.even_iff]
      rw [add_zero, add_assoc]
  refine ⟨hat, ?_⟩
  have hcl : checkList ⟨rs.map Req.nums, rs.map (fun r => .flags r.flags),
        rs.map (fun r => r.nums.map (fun g => (mode g).m)),
        rs.map (fun r => r.nums.map (fun g => (mode g).l)), kl⟩ = some (rs.map (fun r =>
        decide ((r.triad mode).AzimuthalRule ∧ (r.triad mode).MeridionalRule))) := by
    unfold checkList
    rw [mapM_some' _ _ (fun i => if h : i < rs.length then
      decide ((rs[i].triad mode).AzimuthalRule ∧ (rs[i].triad mode).MeridionalRule) else false)]
    · congr 1
      apply List.ext_getElem
      · simp
      · intro i h1 h2
        simp at h1 h2
        simp [h2]
    · intro i hi
      have hi' : i < rs.length := by simpa using hi
      obtain ⟨ha, hm⟩ := hat i hi'
      simp only [ha, hm, hi', dif_pos]
      by_cases hA : (rs[i].triad mode).AzimuthalRule <;>
        simp [hA]
  constructor
  · unfold genericCheck; rw [hcl]; rfl
  · unfold genericCheck; rw [hcl]
    simp only [Option.bind_eq_bind, Option.bind_some, Option.pure_def, if_true, Option.some.injEq,
      Sum.inl.injEq]
    rw [Bool.eq_iff_iff]
    simp

/-- Any reordering of the mode numbers 1, 2, 3 meets the hypothesis of `C27_selection_rules_partial`. -/
theorem selfIndexed_perm (r : Req) (h : r.nums.Perm [1, 2, 3]) : r.SelfIndexed := by
  obtain ⟨⟨a, b, c⟩, f⟩ := r
  have hm : ∀ x ∈ [a, b, c], x = 1 ∨ x = 2 ∨ x = 3 := by
    intro x hx
    have : x ∈ ([1, 2, 3] : List Int) := h.subset hx
    simpa using this
  have ha := hm a (by simp)
  have hb := hm b (by simp)
  have hc := hm c (by simp)
  have hn : ([a, b, c] : List Int).Nodup := h.nodup_iff.2 (by decide)
  unfold Req.SelfIndexed Req.nums
  rcases ha with rfl | rfl | rfl <;> rcases hb with rfl | rfl | rfl <;>
    rcases hc with rfl | rfl | rfl <;> first
      | (exfalso; revert hn; decide)
      | exact ⟨_, rfl, by clear h hm hn; dsimp only; decide⟩

/-- The triads the solver uses, `(1,2,3)`, and the harmonic triad `(1,2,2)`. -/
example (f : Bool × Bool × Bool) : (⟨(1, 2, 3), f⟩ : Req).SelfIndexed ∧
    (⟨(1, 2, 2), f⟩ : Req).SelfIndexed ∧ (⟨(1, 2, 3), f⟩ : Req).InRange 3 :=
  ⟨⟨_, rfl, by dsimp only [Req.nums]; decide⟩, ⟨_, rfl, by dsimp only [Req.nums]; decide⟩, by simp [Req.InRange, Req.nums]⟩

open Classical in
/-- **C27**, the configuration the solver uses (`triads=[(1,2,3)]`, `conjugation=None`): with modes
`a, b, c` the check passes iff `m_a = m_b + m_c` and the meridional orders sum to an even number. -/
theorem C27_default_configuration (a b c : Mode) (rest : List Mode) :
    ∃ o, mkObj (a :: b :: c :: rest) (some [[1, 2, 3]]) none = some o ∧
      mkObj (a :: b :: c :: rest) none none = some o ∧
      genericCheck o true = some (.inl (decide (a.m = b.m + c.m ∧
        Even ((a.l - |a.m|) + (b.l - |b.m|) + (c.l - |c.m|))))) := by
  refine ⟨_, rfl, rfl, ?_⟩
  have h1 : ((-a.m + (b.m + (c.m + 0)) == 0) = true) ↔ a.m = b.m + c.m := by
    simp only [beq_iff_eq]; omega
  have h2 : ((((a.l - |a.m|) + ((b.l - |b.m|) + ((c.l - |c.m|) + 0))) % 2 == 0) = true) ↔
      Even ((a.l - |a.m|) + (b.l - |b.m|) + (c.l - |c.m|)) := by
    rw [Int.even_iff, beq_iff_eq, add_zero, add_assoc]
  change ((if (-a.m + (b.m + (c.m + 0)) == 0) = true then
      some ((((a.l - |a.m|) + ((b.l - |b.m|) + ((c.l - |c.m|) + 0))) % 2 == 0)) else some false).bind
      (fun x => some [x])).bind (fun l => some (Sum.inl (l.all id))) = _
  by_cases e1 : a.m = b.m + c.m
  · have e1' := h1.2 e1
    by_cases e2 : Even ((a.l - |a.m|) + (b.l - |b.m|) + (c.l - |c.m|))
    · have e2' := h2.2 e2
      rw [if_pos e1', e2']; rw [decide_eq_true (⟨e1, e2⟩ : _ ∧ _)]; rfl
    · have e2' : (_ == _) = false := Bool.eq_false_iff.2 (fun h => e2 (h2.1 h))
      rw [if_pos e1', e2', decide_eq_false (fun h => e2 h.2)]; rfl
  · have e1' := fun h => e1 (h1.1 h)
    rw [if_neg e1']; simp [e1]

/-- The specification applied to a triad that satisfies both rules, and to one that breaks each. -/
example : (⟨⟨2, 2⟩, ⟨1, 1⟩, ⟨1, 1⟩, true, false, false⟩ : Triad).AzimuthalRule ∧
    (⟨⟨2, 2⟩, ⟨1, 1⟩, ⟨1, 1⟩, true, false, false⟩ : Triad).MeridionalRule ∧
    ¬ (⟨⟨2, 2⟩, ⟨1, 1⟩, ⟨1, 1⟩, false, false, false⟩ : Triad).AzimuthalRule ∧
    ¬ (⟨⟨3, 2⟩, ⟨1, 1⟩, ⟨1, 1⟩, true, false, false⟩ : Triad).MeridionalRule := by
  refine ⟨by unfold Triad.AzimuthalRule; decide, by unfold Triad.MeridionalRule; decide,
    by unfold Triad.AzimuthalRule; decide, by unfold Triad.MeridionalRule; decide⟩

open Classical in
/-- **C27**: the three-mode check is the conjunction of the selection rules and the stability check. -/
theorem C27_three_mode_check (a b c : Mode) (γ : Fin 3 → ℝ) (q : ℝ) (harmonic : Bool) :
    threeCheck [a, b, c] γ q (some [[1, 2, 3]]) none harmonic =
      some (decide (a.m = b.m + c.m ∧
        Even ((a.l - |a.m|) + (b.l - |b.m|) + (c.l - |c.m|))) &&
        Stab.checkLinearlyStableFp harmonic γ q) := by
  obtain ⟨o, h1, -, h3⟩ := C27_default_configuration a b c []
  unfold threeCheck
  rw [h1]
  simp only [Option.bind_eq_bind, Option.bind_some, h3]
  rfl

/-- **C27 fails** outside that hypothesis: for modes 1, 1, 2 (azimuthal orders 0, so the first rule
holds) the sum of meridional orders is odd but the check accepts the triad, and for the valid triad
2, 3, 4 the constructor raises. -/
theorem C27_meridional_wrong :
    (∃ (mode : Int → Mode) (r : Req), r.InRange 4 ∧ ¬ (r.triad mode).MeridionalRule ∧
      ∃ o, mkObj (gyreOf mode 4) (some [r.nums]) (some [.flags r.flags]) = some o ∧
        genericCheck o true = some (.inl true)) ∧
    (∀ (mode : Int → Mode) (c : Conj),
      mkObj (gyreOf mode 4) (some [[2, 3, 4]]) (some [c]) = none) := by
  constructor
  · refine ⟨fun g => ⟨g - 1, 0⟩, ⟨(1, 1, 2), (true, false, false)⟩, by simp [Req.InRange, Req.nums],
      by unfold Triad.MeridionalRule; decide, _, rfl, rfl⟩
  · intro mode c
    cases c <;> rfl

/-- **C27**: a bare flag in the place of the first tuple counts as no argument, so that a single triad of modes
`a, b, c` is checked with the first mode conjugated, whatever follows the flag; an empty list raises. -/
theorem C27_bare_flag (a b c : Mode) (rest : List Mode) (v : Bool) (cs : List Conj) (ts : Option (List (List Int)))
    (hts : ts = none ∨ ts = some [[1, 2, 3]]) :
    (∃ o, mkObj (a :: b :: c :: rest) ts (some (.bare v :: cs)) = some o ∧
      (genericCheck o true = some (.inl true) ↔ a.m = b.m + c.m ∧ Even ((a.l - |a.m|) + (b.l - |b.m|) + (c.l - |c.m|)))) ∧
    mkObj (a :: b :: c :: rest) ts (some []) = none := by
  classical
  obtain ⟨o, h1, h2, h3⟩ := C27_default_configuration a b c rest
  refine ⟨⟨o, ?_, ?_⟩, by rcases hts with rfl | rfl <;> rfl⟩
  · rcases hts with rfl | rfl
    · exact h2
    · exact h1
  · rw [h3]
    simp

end Verif.PreCheck
