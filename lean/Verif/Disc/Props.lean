import Verif.Disc.Lemmas
import Mathlib.Algebra.Order.Field.Rat
/-!
# Properties C08–C11: disc integrals

`call ldHist niHist o l lds ints threads paral` is the Python call `get_integrals(mus, f, f', f'', lds,
ints, threads, paral)` on the arrays holding the samples `l = [(μ, f, f', f''), …]`; `o` are the
iteration orders of its parallel loops; `visible l` are the samples with `0 ≤ μ ≤ 1`.
-/
namespace Verif.Disc
open Spec

section
variable {α : Type} [Add α] [Sub α] [Mul α] [Div α] [NatCast α] [LE α] [DecidableLE α]

theorem visible_visible (l : List (Sample α)) : visible (visible l) = visible l := by
  simp [visible, List.filter_filter]

/-- C08: the result is that of the call on the visible samples alone. -/
theorem C08_only_visible_samples (ldHist niHist : List String) (o : Orders) (l : List (Sample α))
    (lds ints : String) (threads : Int) (paral : Bool) (ho : Orders.Valid o (visible l).length) :
    call ldHist niHist o l lds ints threads paral =
      call ldHist niHist o (visible l) lds ints threads paral := by
  rw [call_eq _ _ _ _ _ _ _ _ ho, call_eq _ _ _ _ _ _ _ _ (by rw [visible_visible]; exact ho),
    visible_visible]

/-- C08: the vectors built from the arrays are exactly the visible samples, in order, aligned. -/
theorem C08_kept_exactly (l : List (Sample α)) :
    ∃ v, adjust (l.length : Int) (l.map (fun s => s.1)) (l.map (fun s => s.2.1))
      (l.map (fun s => s.2.2.1)) (l.map (fun s => s.2.2.2)) = some v ∧
      v.mymus_b = (visible l).map (fun s => s.1) ∧ v.myang_b = (visible l).map (fun s => s.2.1) ∧
      v.firstder_b = (visible l).map (fun s => s.2.2.1) ∧
      v.secondder_b = (visible l).map (fun s => s.2.2.2) :=
  ⟨_, adjust_eq l, rfl, rfl, rfl, rfl⟩

/-- C08 (non-interference): inputs that agree on the visible samples give the same result. -/
theorem C08_noninterference (ldHist niHist : List String) (o : Orders) (l l' : List (Sample α))
    (h : visible l = visible l')
    (lds ints : String) (threads : Int) (paral : Bool) (ho : Orders.Valid o (visible l).length) :
    call ldHist niHist o l lds ints threads paral =
      call ldHist niHist o l' lds ints threads paral := by
  rw [C08_only_visible_samples _ _ _ l _ _ _ _ ho,
    C08_only_visible_samples _ _ _ l' _ _ _ _ (by rw [← h]; exact ho), h]

/-- C09: serial and parallel mode agree bit for bit, for every thread count, iteration order, history
of earlier calls and (since every name means Eddington) limb-darkening name. -/
theorem C09_serial_eq_parallel (ldHist ldHist' niHist niHist' : List String) (o o' : Orders)
    (l : List (Sample α)) (lds lds' ints : String) (threads threads' : Int) (paral paral' : Bool)
    (ho : Orders.Valid o (visible l).length) (ho' : Orders.Valid o' (visible l).length) :
    call ldHist niHist o l lds ints threads paral =
      call ldHist' niHist' o' l lds' ints threads' paral' := by
  rw [call_eq _ _ _ _ _ _ _ _ ho, call_eq _ _ _ _ _ _ _ _ ho']
  have e : ∀ f x : List α,
      (NumInt.cniIntegrate (NumInt.mapperAfter niHist) ints true f x threads paral).1 =
      (NumInt.cniIntegrate (NumInt.mapperAfter niHist') ints true f x threads' paral').1 := by
    intro f x
    rw [NumInt.C06_threads_irrelevant niHist ints true f x threads threads' paral paral',
      NumInt.cni_eq, NumInt.cni_eq]
  rw [e, e]

/-- Padding: arrays of other lengths behave like samples when every kept index is inside them. -/
theorem pad_eq (d : α) (mus ang d1 d2 : List α)
    (h : ∀ i, ∀ m, mus[i]? = some m → ((0 : Nat) : α) ≤ m → m ≤ ((1 : Nat) : α) →
      i < ang.length ∧ i < d1.length ∧ i < d2.length) :
    let l := tab mus.length (fun i => (mus.getD i d, ang.getD i d, d1.getD i d, d2.getD i d))
    adjust (mus.length : Int) mus ang d1 d2 = adjust (l.length : Int) (l.map (fun s => s.1))
      (l.map (fun s => s.2.1)) (l.map (fun s => s.2.2.1)) (l.map (fun s => s.2.2.2)) := by
  intro l
  have hl : l.length = mus.length := by simp [l]
  unfold adjust forUp
  rw [hl]
  have congr_fold : ∀ (L : List Nat) (f g : Vecs α → Nat → Option (Vecs α)) (a : Vecs α),
      (∀ k ∈ L, ∀ a, f a k = g a k) → L.foldlM f a = L.foldlM g a := by
    intro L f g
    induction L with
    | nil => intro a _; rfl
    | cons k L ih =>
      intro a hh
      rw [List.foldlM_cons, List.foldlM_cons, hh k (by simp)]
      cases g a k with
      | none => rfl
      | some b => exact ih b (fun k hk a => hh k (by simp [hk]) a)
  apply congr_fold
  intro k hk a
  have hk' : k < mus.length := by
    rw [List.mem_range] at hk; omega
  have hz : (0 : Int) + (k : Int) = (k : Int) := by omega
  have hlk : ∀ (f : Sample α → α), rd (l.map f) (k : Int) =
      some (f (mus.getD k d, ang.getD k d, d1.getD k d, d2.getD k d)) := by
    intro f
    rw [rd_map l f k (by omega)]
    simp [l, tab]
  have gd : ∀ (x : List α), k < x.length → rd x (k : Int) = some (x.getD k d) := by
    intro x hx
    rw [rd_nat]; simp [List.getD_eq_getElem?_getD, hx]
  show (_ : Option (Vecs α)) = _
  beta_reduce
  rw [hz, hlk, hlk, hlk, hlk, gd mus hk']
  simp only [Option.bind_eq_bind, Option.bind_some]
  split
  · rename_i hc
    obtain ⟨a1, a2, a3⟩ := h k (mus.getD k d) (by simp [List.getD_eq_getElem?_getD, hk']) hc.1 hc.2
    rw [gd ang a1, gd d1 a2, gd d2 a3]
    rfl
  · rfl

/-- C11: the call is free of out-of-bounds accesses iff at least two samples are visible and every
visible index lies inside the three profile arrays. -/
theorem C11_memory_safe_iff (ldHist niHist : List String) (o : Orders) (mus ang d1 d2 : List α)
    (lds ints : String) (threads : Int) (paral : Bool)
    (ho : Orders.Valid o
      (mus.filter (fun m => ((0 : Nat) : α) ≤ m ∧ m ≤ ((1 : Nat) : α))).length) :
    (getIntegrals ldHist niHist o mus ang d1 d2 lds ints threads paral).isSome = true ↔
      2 ≤ (mus.filter (fun m => ((0 : Nat) : α) ≤ m ∧ m ≤ ((1 : Nat) : α))).length ∧
      ∀ i m, mus[i]? = some m → ((0 : Nat) : α) ≤ m → m ≤ ((1 : Nat) : α) →
        i < ang.length ∧ i < d1.length ∧ i < d2.length := by
  by_cases h : ∀ i m, mus[i]? = some m → ((0 : Nat) : α) ≤ m → m ≤ ((1 : Nat) : α) →
        i < ang.length ∧ i < d1.length ∧ i < d2.length
  · set d : α := ((0 : Nat) : α)
    set l := tab mus.length (fun i => (mus.getD i d, ang.getD i d, d1.getD i d, d2.getD i d)) with hl
    have hpad := pad_eq d mus ang d1 d2 h
    have hml : l.map (fun s => s.1) = mus := by
      rw [hl]
      conv_rhs => rw [tab_surj mus d]
      simp [tab, Function.comp_def]
    have hvis : (visible l).length =
        (mus.filter (fun m => ((0 : Nat) : α) ≤ m ∧ m ≤ ((1 : Nat) : α))).length := by
      conv_rhs => rw [← hml, List.filter_map]
      rw [List.length_map]; rfl
    have hcall : getIntegrals ldHist niHist o mus ang d1 d2 lds ints threads paral =
        call ldHist niHist o l lds ints threads paral := by
      unfold call getIntegrals
      rw [hpad]
      simp only [hl, length_tab, List.length_map]
    rw [hcall, call_eq _ _ _ _ _ _ _ _ (by rw [hvis]; exact ho), ← hvis]
    have safe := fun (f : Sample α → α) => NumInt.C05_memory_safe_iff niHist ints true
      ((visible l).map f) ((visible l).map (fun s => s.1)) threads paral
    simp only [List.length_map, if_true] at safe
    constructor
    · intro hs
      refine ⟨?_, h⟩
      by_contra h2
      have hn : (NumInt.cniIntegrate (NumInt.mapperAfter niHist) ints true
          ((visible l).map firstAt) ((visible l).map (fun s => s.1)) threads paral).1 = none := by
        rw [← Option.not_isSome_iff_eq_none]
        intro hh
        exact h2 ((safe firstAt).1 hh).1
      rw [hn] at hs
      simp at hs
    · rintro ⟨h2, -⟩
      obtain ⟨r1, e1⟩ := Option.isSome_iff_exists.1 ((safe firstAt).2 ⟨h2, by omega, by omega⟩)
      obtain ⟨r2, e2⟩ := Option.isSome_iff_exists.1 ((safe secondAt).2 ⟨h2, by omega, by omega⟩)
      rw [e1, e2]
      rfl
  · constructor
    · intro hs
      exfalso
      push Not at h
      obtain ⟨i, m, hm, h0, h1, hout⟩ := h
      have hi : i < mus.length := by
        by_contra hc
        rw [List.getElem?_eq_none (by omega)] at hm
        simp at hm
      have : adjust (mus.length : Int) mus ang d1 d2 = none := by
        unfold adjust
        apply forUp_none _ _ _ _ (i : Int) (by omega) (by omega)
        intro a
        rw [rd_nat, hm]
        simp only [Option.bind_eq_bind, Option.bind_some]
        rw [if_pos ⟨h0, h1⟩]
        rw [rd_nat, rd_nat, rd_nat]
        by_cases c1 : i < ang.length
        · by_cases c2 : i < d1.length
          · have c3 := hout c1 c2
            rw [List.getElem?_eq_none (l := d2) (by omega)]
            cases ang[i]? <;> cases d1[i]? <;> rfl
          · rw [List.getElem?_eq_none (l := d1) (by omega)]
            cases ang[i]? <;> rfl
        · rw [List.getElem?_eq_none (l := ang) (by omega)]
          rfl
      unfold getIntegrals at hs
      rw [this] at hs
      simp at hs
    · rintro ⟨-, h'⟩; exact absurd h' h
end

/-- C10 partial: when the visible μ-values are equally spaced, 'trapz' (or any unknown method name)
returns the trapezoid sums of `μ f ld` and `2 μ² f' ld − (μ − μ³) f'' ld` with `ld = 1 + 1.5 μ`.
Missing: grids whose visible part is not equally spaced, where the claim is false
(`C10_uneven_grid_wrong`), because the equal-spacing flag is hard-wired. -/
theorem C10_equispaced_trapezoid_partial {K : Type} [Field K] [LinearOrder K] [NeZero (2 : K)]
    (ldHist niHist : List String) (o : Orders) (l : List (Sample K))
    (lds ints : String) (hints : ints ≠ "simpson") (threads : Int) (paral : Bool)
    (n : Nat) (hn : 2 ≤ n) (mu f f' f'' : Nat → K)
    (hvis : visible l = tab n (fun i => (mu i, f i, f' i, f'' i)))
    (heq : NumInt.Spec.Equispaced n mu) (ho : Orders.Valid o n) :
    call ldHist niHist o l lds ints threads paral =
      some (NumInt.Spec.trapSum n mu (fun i => mu i * f i * (1 + 3 / 2 * mu i)),
        NumInt.Spec.trapSum n mu (fun i => 2 * mu i ^ 2 * f' i * (1 + 3 / 2 * mu i)
          - (mu i - mu i ^ 3) * f'' i * (1 + 3 / 2 * mu i))) := by
  have hlen : (visible l).length = n := by rw [hvis]; simp
  rw [call_eq _ _ _ _ _ _ _ _ (by rw [hlen]; exact ho), hvis]
  have hm : ∀ g : Sample K → K, (tab n (fun i => (mu i, f i, f' i, f'' i))).map g =
      tab n (fun i => g (mu i, f i, f' i, f'' i)) := by
    intro g; simp [tab, Function.comp_def]
  rw [hm, hm, hm]
  have hint : ∀ g : Nat → K, (NumInt.cniIntegrate (NumInt.mapperAfter niHist) ints true (tab n g)
      (tab n mu) threads paral).1 = some (NumInt.Spec.trapSum n mu g) := by
    intro g
    rw [NumInt.cni_eq, if_neg hints]
    have := NumInt.C02_shortcut_sound niHist n hn mu g heq threads paral
    rw [NumInt.C01_trapz_sum, NumInt.cni_eq, if_neg (by decide)] at this
    rw [← this]
    exact NumInt.trapz_congr _ _ rfl rfl rfl rfl
  rw [hint, hint]
  simp only [Option.bind_eq_bind, Option.bind_some, Option.pure_def]
  congr 2
  · congr 1
    funext i
    simp [firstAt, Ld.law]
  · congr 1
    funext i
    simp [secondAt, Ld.law]
    ring

/-- C10 is FALSE in general: on the visible grid 0, 1/4, 1 with `f = 1` the first integral returned is
not the trapezoid sum (the first spacing 1/4 is used for all panels). -/
theorem C10_uneven_grid_wrong (o : Orders) (ho : Orders.Valid o 3) (paral : Bool) :
    ∃ (mu : Nat → ℚ) (r : ℚ × ℚ),
      call [] [] o (tab 3 (fun i => (mu i, 1, 0, 0))) "eddington" "trapz" 4 paral = some r ∧
      (∀ i, i < 3 → 0 ≤ mu i ∧ mu i ≤ 1) ∧ mu 0 < mu 1 ∧ mu 1 < mu 2 ∧
      r.1 ≠ NumInt.Spec.trapSum 3 mu (fun i => mu i * 1 * (1 + 3 / 2 * mu i)) := by
  have hvis : visible (tab 3 (fun i => (([0, 1/4, 1] : List ℚ).getD i 0, (1:ℚ), (0:ℚ), (0:ℚ)))) =
      tab 3 (fun i => (([0, 1/4, 1] : List ℚ).getD i 0, (1:ℚ), (0:ℚ), (0:ℚ))) := by
    simp [visible, tab, List.range_succ]; norm_num
  have hm : ∀ g : Sample ℚ → ℚ,
      (tab 3 (fun i => (([0, 1/4, 1] : List ℚ).getD i 0, (1:ℚ), (0:ℚ), (0:ℚ)))).map g =
      tab 3 (fun i => g (([0, 1/4, 1] : List ℚ).getD i 0, (1:ℚ), (0:ℚ), (0:ℚ))) := by
    intro g; simp [tab, Function.comp_def]
  have hc := call_eq [] [] o (tab 3 (fun i => (([0, 1/4, 1] : List ℚ).getD i 0, (1:ℚ), (0:ℚ), (0:ℚ))))
    "eddington" "trapz" 4 paral (by rw [hvis]; simpa using ho)
  rw [hvis, hm, hm, hm, NumInt.cni_eq, NumInt.cni_eq, if_neg (by decide), if_neg (by decide),
    NumInt.trapz_tab_even _ 3 (by norm_num), NumInt.trapz_tab_even _ 3 (by norm_num)] at hc
  refine ⟨fun i => ([0, 1/4, 1] : List ℚ).getD i 0, _, hc, ?_, ?_, ?_, ?_⟩
  · intro i hi
    have : i = 0 ∨ i = 1 ∨ i = 2 := by omega
    rcases this with rfl | rfl | rfl <;> norm_num
  · norm_num
  · norm_num
  · simp [NumInt.Spec.trapSum, Finset.sum_range_succ, firstAt, Ld.law]
    norm_num

/-- Non-vacuity for C08–C11: samples on both sides of the disc edge, an equispaced visible part, a
shuffled order. -/
example : ∃ (l : List (Sample ℚ)) (o : Orders), l.length = 5 ∧ (visible l).length = 3 ∧
    Orders.Valid o (visible l).length ∧ o.first ≠ List.range 3 ∧
    NumInt.Spec.Equispaced 3 (fun i => ((visible l).getD i (0,0,0,0)).1) := by
  have hv : visible ([(-1, 7, 7, 7), (0, 1, 2, 3), (1/2, 1, 2, 3), (1, 1, 2, 3), (2, 9, 9, 9)] :
      List (Sample ℚ)) = [(0, 1, 2, 3), (1/2, 1, 2, 3), (1, 1, 2, 3)] := by
    simp [visible]; norm_num
  refine ⟨[(-1, 7, 7, 7), (0, 1, 2, 3), (1/2, 1, 2, 3), (1, 1, 2, 3), (2, 9, 9, 9)],
    ⟨[0,1,2], [2,1,0], [1,0,2], [2,0,1]⟩, rfl, by rw [hv]; rfl, ?_, by decide, ?_⟩
  · rw [hv]
    refine ⟨?_, ?_, ?_, ?_⟩ <;> (show List.Perm _ (List.range 3); decide)
  · rw [hv]
    intro k hk
    have : k = 0 ∨ k = 1 := by omega
    rcases this with rfl | rfl <;> norm_num

end Verif.Disc
