import Verif.Kernels.Model
import Verif.Coupling.Value4
/-! # Properties C103, C104: the rows of the angular and radial kernels -/
namespace Verif.Kernels
open Equiv NumInt Coupling
noncomputable section

/-! ### Lemmas -/

theorem fold_keys (l d : List Term) (hd : d.Nodup) :
    (l.foldl (fun d k => if k ∈ d then d else d ++ [k]) d).Nodup ∧
      ∀ k, k ∈ l.foldl (fun d k => if k ∈ d then d else d ++ [k]) d ↔ k ∈ d ∨ k ∈ l := by
  induction l generalizing d with
  | nil => simp [hd]
  | cons a l ih =>
    rw [List.foldl_cons]
    by_cases h : a ∈ d
    · simp only [if_pos h]
      refine ⟨(ih d hd).1, fun k => ?_⟩
      rw [(ih d hd).2, List.mem_cons]
      constructor
      · rintro (h' | h')
        · exact .inl h'
        · exact .inr (.inr h')
      · rintro (h' | rfl | h')
        · exact .inl h'
        · exact .inl h
        · exact .inr h'
    · simp only [if_neg h]
      have hn : (d ++ [a]).Nodup := by
        rw [List.nodup_append]; exact ⟨hd, by simp, by rintro x hx y hy rfl; simp at hy; exact h (hy ▸ hx)⟩
      refine ⟨(ih _ hn).1, fun k => ?_⟩
      rw [(ih _ hn).2]; simp [or_assoc]

theorem keys_nodup (t : Term) : (keys t).Nodup := (fold_keys _ _ List.nodup_nil).1

theorem mem_keys (t k : Term) : k ∈ keys t ↔ ∃ π : Perm (Fin 3), k = Coupling.Spec.distribute t π := by
  unfold keys
  rw [(fold_keys _ _ List.nodup_nil).2, permutations_eq]
  simp only [List.not_mem_nil, false_or, List.mem_map]
  exact ⟨fun ⟨π, _, h⟩ => ⟨π, h.symm⟩, fun ⟨π, h⟩ => ⟨π, mem_six π, h.symm⟩⟩

theorem construct_tab (attr : String → Option (List ℝ)) (a b c : String) (n : ℕ) (p q r : ℕ → ℝ)
    (h1 : attr (name a 1) = some (tab n p)) (h2 : attr (name b 2) = some (tab n q)) (h3 : attr (name c 3) = some (tab n r)) :
    construct attr a b c = some (tab n fun i => p i * q i * r i) := by
  unfold construct
  simp [h1, h2, h3, mul_tab]

theorem mapM_some {α β : Type} (l : List α) (f : α → Option β) (g : α → β) (h : ∀ a ∈ l, f a = some (g a)) :
    l.mapM f = some (l.map g) := by
  induction l with
  | nil => rfl
  | cons a l ih =>
    rw [List.mapM_cons, h a (by simp), ih fun b hb => h b (by simp [hb])]; rfl

theorem symmetrized_tab (build : Term → Option (List ℝ)) (n : ℕ) (t : Term) (f : Term → ℕ → ℝ)
    (h : ∀ k ∈ keys t, build k = some (tab n (f k))) :
    symmetrized build n t = some ((keys t).map fun k => tab n (f k), keys t) := by
  unfold symmetrized
  rw [mapM_some (keys t) _ (fun k => tab n (f k)) fun k hk => by simp [h k hk]]
  rfl

/-- Names of a term. -/
def All (P : String → Prop) (t : Term) : Prop := P t.1 ∧ P t.2.1 ∧ P t.2.2

theorem all_keys (P : String → Prop) (t k : Term) (h : All P t) (hk : k ∈ keys t) : All P k := by
  obtain ⟨π, rfl⟩ := (mem_keys t k).1 hk
  exact act_mem P t h π

/-! ### C103: angular kernels -/

/-- The samples of the nine angular functions of three modes on `N` latitudes. -/
structure Spec.AngSamples (o : Coupling.Obj) (N : ℕ) (μ : ℕ → ℝ) (f : String → Fin 3 → ℕ → ℝ) : Prop where
  mu : o.mu = tab N μ
  fn : ∀ b ∈ ["hr", "ht", "hp", "mhr", "theta_der_hr_theta", "theta_der_ht_theta", "theta_der_hp_theta", "phi_phi",
    "theta_phi"], ∀ k : Fin 3, o.attr ("_" ++ b ++ "_mode_" ++ toString (k.val + 1)) = some (tab N (f b k))

/-- The product of the functions that a legend names: the first of mode 1, the second of mode 2, the third of
mode 3. -/
def Spec.product (f : String → Fin 3 → ℕ → ℝ) (key : Term) (j : ℕ) : ℝ := f key.1 0 j * f key.2.1 1 j * f key.2.2 2 j

/-- The number of terms of the four contributions, and their labels. -/
def Spec.angLabels (nr : ℤ) : List String :=
  (List.range (if nr = 1 then 10 else if nr = 2 then 1 else if nr = 3 then 24 else 3)).map fun i => "term_" ++ toString (i + 1)

/-- The entry of a load. -/
def angEntry (N : ℕ) (f : String → Fin 3 → ℕ → ℝ) (l : AngLoad) : AngEntry :=
  let leg := if l.sym then keys l.t else [l.t]
  { kernel := leg.map fun k => tab N (Spec.product f k), legend := leg, symmetric := l.sym, mulMu := l.mulMu,
    divSin := l.divSin, factor := l.factor }

theorem loadAngular_eq {o : Coupling.Obj} {N : ℕ} {μ : ℕ → ℝ} {f : String → Fin 3 → ℕ → ℝ} (h : Spec.AngSamples o N μ f)
    (l : AngLoad) (ht : All (· ∈ angularNames) l.t) : loadAngular o l = some (angEntry N f l) := by
  have hb : ∀ k, All (· ∈ angularNames) k →
      construct o.attr ("_" ++ k.1) ("_" ++ k.2.1) ("_" ++ k.2.2) = some (tab N (Spec.product f k)) := by
    intro k hk
    exact construct_tab _ _ _ _ _ _ _ _ (h.fn _ hk.1 0) (h.fn _ hk.2.1 1) (h.fn _ hk.2.2 2)
  unfold loadAngular angEntry
  by_cases hs : l.sym
  · simp only [hs, if_true]
    rw [h.mu, length_tab, symmetrized_tab _ N l.t (Spec.product f) fun k hk => hb k (all_keys _ _ _ ht hk)]
    rfl
  · simp only [hs, Bool.false_eq_true, if_false, hb _ ht]
    rfl

theorem ang_names : ∀ ls ∈ [ang1, ang2, ang3, ang4], ∀ l ∈ ls, All (· ∈ angularNames) l.t := by
  simp only [ang1, ang2, ang3, ang4, List.mem_cons, List.not_mem_nil, or_false, forall_eq_or_imp, forall_eq, All, angularNames]
  simp

/-- The loads of a contribution. -/
def angLoads (nr : ℤ) : List AngLoad := if nr = 1 then ang1 else if nr = 2 then ang2 else if nr = 3 then ang3 else ang4

theorem angCall_eq {o : Coupling.Obj} {N : ℕ} {μ : ℕ → ℝ} {f : String → Fin 3 → ℕ → ℝ} (h : Spec.AngSamples o N μ f)
    (nr : ℤ) (hn : nr = 1 ∨ nr = 2 ∨ nr = 3 ∨ nr = 4) :
    angCall o nr = some (some ((angLoads nr).map fun l => (l.label, angEntry N f l))) := by
  have key : ∀ ls ∈ [ang1, ang2, ang3, ang4], (ls.mapM fun l => (loadAngular o l).map fun e => (l.label, e)) =
      some (ls.map fun l => (l.label, angEntry N f l)) := fun ls hls =>
    mapM_some ls _ _ fun l hl => by simp [loadAngular_eq h l (ang_names ls hls l hl)]
  unfold angCall angLoads
  rcases hn with rfl | rfl | rfl | rfl
  · simp only [if_true]; rw [key _ (by simp)]; rfl
  · rw [if_neg (by decide), if_pos rfl, if_neg (by decide), if_pos rfl]
    dsimp only; rw [key _ (by simp)]; rfl
  · rw [if_neg (by decide), if_neg (by decide), if_pos rfl, if_neg (by decide), if_neg (by decide), if_pos rfl]
    dsimp only; rw [key _ (by simp)]; rfl
  · rw [if_neg (by decide), if_neg (by decide), if_neg (by decide), if_pos rfl, if_neg (by decide), if_neg (by decide),
      if_neg (by decide)]
    dsimp only; rw [key _ (by simp)]; rfl

/-- **C103 (partial: the scaling is missing).** For each of the four contributions and all sampled angular
functions, the call returns the terms in order; every term has one row for each legend, the rows of a
symmetrised term are all different distributions of its three functions over the modes, each once, and each row
is the product of the functions its legend names. -/
theorem C103_rows_partial (o : Coupling.Obj) (N : ℕ) (μ : ℕ → ℝ) (f : String → Fin 3 → ℕ → ℝ) (h : Spec.AngSamples o N μ f)
    (nr : ℤ) (hn : nr = 1 ∨ nr = 2 ∨ nr = 3 ∨ nr = 4) :
    ∃ d, angCall o nr = some (some d) ∧ d.map (·.1) = Spec.angLabels nr ∧ ∀ p ∈ d,
      p.2.kernel = p.2.legend.map (fun key => tab N (Spec.product f key)) ∧ p.2.legend.Nodup ∧
      ∃ t : Term, if p.2.symmetric then ∀ key, key ∈ p.2.legend ↔ ∃ π, key = Coupling.Spec.distribute t π
        else p.2.legend = [t] := by
  refine ⟨_, angCall_eq h nr hn, ?_, ?_⟩
  · rw [List.map_map]
    rcases hn with rfl | rfl | rfl | rfl <;> rfl
  · intro p hp
    obtain ⟨l, _, rfl⟩ := List.mem_map.1 hp
    refine ⟨rfl, ?_, l.t, ?_⟩
    · simp only [angEntry]; split
      · exact keys_nodup _
      · simp
    · simp only [angEntry]; split
      · exact fun key => mem_keys _ _
      · rfl

/-- **C103.** Any other contribution number returns None. -/
theorem C103_unknown (o : Coupling.Obj) (nr : ℤ) (h : nr < 1 ∨ 4 < nr) : angCall o nr = some none := by
  unfold angCall
  rw [if_neg (by omega), if_neg (by omega), if_neg (by omega), if_neg (by omega)]

/-- What a row should be according to the entry itself. -/
def Spec.declared (μ : ℕ → ℝ) (f : String → Fin 3 → ℕ → ℝ) (e : AngEntry) (key : Term) (j : ℕ) : ℝ :=
  e.factor * (if e.mulMu then μ j else 1) * Spec.product f key j / (if e.divSin then √(1 - μ j ^ 2) else 1)

/-- The terms whose entries declare a factor or a division. -/
def Spec.scaledTerms (nr : ℤ) : List String :=
  if nr = 1 then ["term_4", "term_8", "term_10"]
  else if nr = 2 then []
  else if nr = 3 then ["term_2", "term_4", "term_6", "term_7", "term_8", "term_12", "term_14", "term_15", "term_16", "term_17",
    "term_18", "term_19"]
  else ["term_2"]

open Classical in
/-- **C103 (refutation).** The factor and the division by the sine that an entry declares (and that its plot label
shows) are never applied: a row has the declared value only where the product vanishes or the declared
multiplier happens to be one.  The named terms of the first, third and fourth contribution declare a factor or a
division. -/
theorem C103_scaling_wrong (o : Coupling.Obj) (N : ℕ) (μ : ℕ → ℝ) (f : String → Fin 3 → ℕ → ℝ)
    (h : Spec.AngSamples o N μ f) (nr : ℤ) (hn : nr = 1 ∨ nr = 2 ∨ nr = 3 ∨ nr = 4) :
    ∃ d, angCall o nr = some (some d) ∧
      (∀ p ∈ d, ∀ (i : ℕ) (key : Term), p.2.legend[i]? = some key → ∀ j < N, ∃ row, p.2.kernel[i]? = some row ∧
        (row[j]? = some (Spec.declared μ f p.2 key j) ↔ Spec.product f key j = 0 ∨
          p.2.factor * (if p.2.mulMu then μ j else 1) / (if p.2.divSin then √(1 - μ j ^ 2) else 1) = 1)) ∧
      (d.filter fun p => p.2.factor ≠ 1 ∨ p.2.divSin = true).map (·.1) = Spec.scaledTerms nr := by
  refine ⟨_, angCall_eq h nr hn, ?_, ?_⟩
  · intro p hp i key hi j hj
    obtain ⟨l, _, rfl⟩ := List.mem_map.1 hp
    refine ⟨tab N (Spec.product f key), ?_, ?_⟩
    · change (List.map _ (angEntry N f l).legend)[i]? = _
      rw [List.getElem?_map, hi]; rfl
    · have : (tab N (Spec.product f key))[j]? = some (Spec.product f key j) := by simp [tab, hj]
      rw [this, Option.some.injEq]
      generalize hx : Spec.product f key j = x
      generalize hc : (angEntry N f l).factor * (if (angEntry N f l).mulMu then μ j else 1) /
        (if (angEntry N f l).divSin then √(1 - μ j ^ 2) else 1) = c
      have : Spec.declared μ f (angEntry N f l) key j = x * c := by rw [← hx, ← hc]; unfold Spec.declared; ring
      rw [this]
      constructor
      · intro he
        by_cases h0 : x = 0
        · exact .inl h0
        · exact .inr (mul_left_cancel₀ h0 (by rw [mul_one]; exact he.symm))
      · rintro (h0 | h1)
        · simp [h0]
        · rw [h1, mul_one]
  · have m1 : ¬ ((-1 : ℝ) = 1) := by norm_num
    have m2 : ¬ ((-2 : ℝ) = 1) := by norm_num
    rcases hn with rfl | rfl | rfl | rfl
    · simp [angLoads, ang1, angEntry, Spec.scaledTerms, List.filter_cons, m1, m2]
    · simp [angLoads, ang2, angEntry, Spec.scaledTerms, List.filter_cons, m1, m2]
    · simp [angLoads, ang3, angEntry, Spec.scaledTerms, List.filter_cons, m1, m2]
    · simp [angLoads, ang4, angEntry, Spec.scaledTerms, List.filter_cons, m1, m2]

/-- Non-vacuity: any functions can be sampled. -/
example : ∃ o : Coupling.Obj, Spec.AngSamples o 2 (fun j => j / 2) (fun _ _ _ => 1) :=
  ⟨{ attr := fun _ => some (tab 2 fun _ => 1), mu := tab 2 fun j => j / 2, x := [], mList := [], conj := .none, PNormed := [],
     rhoNormed := [], Gamma1 := [], rhoGammaDer := none, dgrav := [], dgrav2 := [], dgrav3 := [], normP := 1, normRho := 1,
     R := 1 }, rfl, fun _ _ _ => rfl⟩

end
end Verif.Kernels
