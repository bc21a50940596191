import Verif.Coupling.Lemmas
/-! The symmetrised terms as sums over the permutations of the modes, and relabelling. -/
namespace Verif.Coupling
open Finset Equiv
noncomputable section

/-- `o'` is `o` with the three modes relabelled: mode `k` of `o'` is mode `σ k` of `o`, with its profiles,
azimuthal order and conjugation flag; everything else is the same. -/
structure Relabel (σ : Perm (Fin 3)) (o o' : Obj) : Prop where
  attr : ∀ (base : String) (k : Fin 3), o'.attr (name base (k + 1)) = o.attr (name base (σ k + 1))
  orders : ∃ (m : Fin 3 → ℤ) (c : Fin 3 → Bool),
    o.mList = [m 0, m 1, m 2] ∧ AngInt.conjugated o.conj = some (c 0, c 1, c 2) ∧
    o'.mList = [m (σ 0), m (σ 1), m (σ 2)] ∧ AngInt.conjugated o'.conj = some (c (σ 0), c (σ 1), c (σ 2))
  rest : o' = { o with attr := o'.attr, mList := o'.mList, conj := o'.conj }

variable {σ : Perm (Fin 3)} {o o' : Obj}

theorem Relabel.combine (h : Relabel σ o o') (f : String → String) (t : Term) :
    Coupling.combine (o'.attr (name (f (t.get 0)) 1)) (o'.attr (name (f (t.get 1)) 2)) (o'.attr (name (f (t.get 2)) 3)) =
    Coupling.combine (o.attr (name (f ((act t σ⁻¹).get 0)) 1)) (o.attr (name (f ((act t σ⁻¹).get 1)) 2))
      (o.attr (name (f ((act t σ⁻¹).get 2)) 3)) := by
  have e0 := h.attr (f (t.get 0)) 0
  have e1 := h.attr (f (t.get 1)) 1
  have e2 := h.attr (f (t.get 2)) 2
  simp only [Fin.isValue, Fin.val_zero, Fin.val_one, Fin.val_two, Nat.reduceAdd, zero_add] at e0 e1 e2
  rw [e0, e1, e2]
  have key := combine_perm (fun k => o.attr (name (f (t.get (σ⁻¹ k))) (k + 1))) σ
  simp only [show ∀ k, σ⁻¹ (σ k) = k from fun k => σ.symm_apply_apply k] at key
  rw [key]
  simp [act]

theorem Relabel.radInt (h : Relabel σ o o') (t : Term) (mult : List ℝ) (idx : Option ℕ) :
    Coupling.radInt o' t mult idx = Coupling.radInt o (act t σ⁻¹) mult idx := by
  have hc := h.combine (fun s => s) t
  rw [radInt_combine, radInt_combine, hc]
  have : radOf o' mult idx = radOf o mult idx := by
    rw [h.rest]; rfl
  rw [this]

theorem Relabel.angInt (h : Relabel σ o o') (t : Term) (div : Bool) :
    Coupling.angInt o' t div = Coupling.angInt o (act t σ⁻¹) div := by
  obtain ⟨m, c, h1, h2, h3, h4⟩ := h.orders
  unfold Coupling.angInt
  have hop : angOpts o' div = angOpts o div := by rw [h.rest]; rfl
  have hth : AngInt.thetaIntegral (angObj o') [name ("_" ++ t.1) 1, name ("_" ++ t.2.1) 2, name ("_" ++ t.2.2) 3]
        (angOpts o div) =
      AngInt.thetaIntegral (angObj o) [name ("_" ++ (act t σ⁻¹).1) 1, name ("_" ++ (act t σ⁻¹).2.1) 2,
        name ("_" ++ (act t σ⁻¹).2.2) 3] (angOpts o div) := by
    apply thetaIntegral_congr
    · rw [product_combine, product_combine]
      exact h.combine (fun s => "_" ++ s) t
    · rw [h.rest]; rfl
  rw [hop]
  unfold AngInt.angularIntegral
  rw [hth, h1, h3]
  simp only [AngInt.adapt_three _ _ _ _ _ _ _ h2, AngInt.adapt_three _ _ _ _ _ _ _ h4]
  have key : AngInt.selectionRule [AngInt.sgn (c (σ 0)) * m (σ 0), AngInt.sgn (c (σ 1)) * m (σ 1), AngInt.sgn (c (σ 2)) * m (σ 2)] =
      AngInt.selectionRule [AngInt.sgn (c 0) * m 0, AngInt.sgn (c 1) * m 1, AngInt.sgn (c 2) * m 2] := by
    have := Equiv.sum_comp σ (fun k => AngInt.sgn (c k) * m k)
    rw [Fin.sum_univ_three, Fin.sum_univ_three] at this
    unfold AngInt.selectionRule
    congr 1
    simp only [List.sum_cons, List.sum_nil]; omega
  rw [key]

/-- Pairs of radial terms and factors of a call; `none` when a factor is missing. -/
def radPairs : Rad → List ℝ → List (Term × Option ℝ)
  | .one t, f => [(t, f[0]?)]
  | .many ts, f => ts.zipIdx.map fun p => (p.1, f[p.2]?)

/-- Angular terms with division flags and factors. -/
def angPairs : Ang → List ℝ → List (Term × Option Bool × Option ℝ)
  | .one t d, f => [(t, some d, f[0]?)]
  | .many ts d, f => ts.zipIdx.map fun p => (p.1, d[p.2]?, f[p.2]?)

/-- A factor times an integral. -/
def scaled (g : Option ℝ) (v : Option ℝ) : Option ℝ := g.bind fun g => v.map fun v => g * v

theorem scaled_eq (g : Option ℝ) (v : Option ℝ) :
    (do let g ← g; let v ← v; pure (g * v) : Option ℝ) = scaled g v := by
  cases g <;> cases v <;> rfl

/-- Radial integrals of one term, with its factor. -/
def radF (o : Obj) (mult : List ℝ) (idx : Option ℕ) (p : Term × Option ℝ) (key : Term) : Option ℝ :=
  scaled p.2 (radInt o key mult idx)
/-- Angular integrals of one term, with its factor. -/
def angF (o : Obj) (p : Term × Option Bool × Option ℝ) (key : Term) : Option ℝ :=
  scaled p.2.2 (p.2.1.bind fun d => angInt o key d)

open Classical in
theorem radColumns_eq (g : List ℝ) (hg : g.length = 6) (r : Rad) (mult f : List ℝ) (idx : Option ℕ) :
    radColumns o g r mult f idx =
      (radPairs r f).mapM fun p => if colOk (radF o mult idx p) p.1 then
        some (six.map (colVal (radF o mult idx p) p.1)) else none := by
  unfold radColumns
  simp only [scaled_eq]
  cases r with
  | one t =>
    simp only [radPairs, List.mapM_cons, List.mapM_nil]
    rw [column_eq g hg]
    show Option.map _ (if colOk (radF o mult idx (t, f[0]?)) t then some (six.map (colVal (radF o mult idx (t, f[0]?)) t)) else none) = _
    split <;> rfl
  | many ts =>
    simp only [radPairs, List.mapM_map]
    congr 1
    funext p
    rw [column_eq g hg]; rfl

open Classical in
theorem angColumns_eq (g : List ℝ) (hg : g.length = 6) (a : Ang) (f : List ℝ) :
    angColumns o g a f =
      (angPairs a f).mapM fun p => if colOk (angF o p) p.1 then
        some (six.map (colVal (angF o p) p.1)) else none := by
  unfold angColumns
  simp only [scaled_eq]
  cases a with
  | one t d =>
    simp only [angPairs, List.mapM_cons, List.mapM_nil]
    rw [column_eq g hg]
    show Option.map _ (if colOk (angF o (t, some d, f[0]?)) t then some (six.map (colVal (angF o (t, some d, f[0]?)) t)) else none) = _
    split <;> rfl
  | many ts ds =>
    simp only [angPairs, List.mapM_map]
    congr 1
    funext p
    cases hd : ds[p.2]? with
    | none =>
      simp only [Option.bind_eq_bind, Option.bind_none, Function.comp]
      rw [if_neg]
      intro h
      have := h 1
      cases hf : f[p.2]? <;> simp [angF, scaled, hf, hd] at this
    | some d =>
      simp only [Option.bind_eq_bind, Option.bind_some, Function.comp]
      rw [column_eq g hg]; simp only [hd]; rfl

/-- All integrals of the call exist. -/
def allOk (o : Obj) (rs : List (Term × Option ℝ)) (as : List (Term × Option Bool × Option ℝ)) (mult : List ℝ)
    (idx : Option ℕ) : Prop :=
  (∀ p ∈ as, colOk (angF o p) p.1) ∧ ∀ p ∈ rs, colOk (radF o mult idx p) p.1

/-- The sum over permutations of radial sum times angular sum. -/
def total (o : Obj) (rs : List (Term × Option ℝ)) (as : List (Term × Option Bool × Option ℝ)) (mult : List ℝ)
    (idx : Option ℕ) : ℝ :=
  ∑ π : Perm (Fin 3), (rs.map fun p => colVal (radF o mult idx p) p.1 π).sum *
    (as.map fun p => colVal (angF o p) p.1 π).sum

theorem mapM_if {α β : Type} (l : List α) (P : α → Prop) [DecidablePred P] (F : α → β) :
    (l.mapM fun x => if P x then some (F x) else none) = (open Classical in if ∀ x ∈ l, P x then some (l.map F) else none) := by
  classical
  induction l with
  | nil => simp
  | cons a l ih =>
    rw [List.mapM_cons, ih]
    by_cases ha : P a <;> by_cases hl : ∀ x ∈ l, P x
    · rw [if_pos ha, if_pos hl, if_pos (by simpa [ha] using hl)]; rfl
    · rw [if_pos ha, if_neg hl, if_neg (fun h => hl fun x hx => h x (List.mem_cons_of_mem _ hx))]; rfl
    · have hn : ¬ ∀ x ∈ a :: l, P x := fun h => ha (h a List.mem_cons_self)
      rw [if_neg ha, if_neg hn]; rfl
    · have hn : ¬ ∀ x ∈ a :: l, P x := fun h => ha (h a List.mem_cons_self)
      rw [if_neg ha, if_neg hn]; rfl

theorem sum_sum_pull {α β : Type} (rs : List α) (as : List β) (u : α → Perm (Fin 3) → ℝ) (v : β → Perm (Fin 3) → ℝ) :
    (rs.map fun r => (as.map fun a => ∑ π, u r π * v a π).sum).sum =
      ∑ π, (rs.map fun r => u r π).sum * (as.map fun a => v a π).sum := by
  induction rs with
  | nil => simp
  | cons r rs ih =>
    rw [List.map_cons, List.sum_cons, ih]
    have : (as.map fun a => ∑ π, u r π * v a π).sum = ∑ π, u r π * (as.map fun a => v a π).sum := by
      clear ih
      induction as with
      | nil => simp
      | cons a as ih => simp only [List.map_cons, List.sum_cons, ih, ← Finset.sum_add_distrib, mul_add]
    rw [this, ← Finset.sum_add_distrib]
    refine Finset.sum_congr rfl fun π _ => ?_
    simp only [List.map_cons, List.sum_cons]; ring

open Classical in
theorem determiner_eq (g1 g2 : List ℝ) (h1 : g1.length = 6) (h2 : g2.length = 6) (a : Ang) (r : Rad)
    (mult af rf : List ℝ) (idx : Option ℕ) :
    symmetryDeterminer o g1 g2 a r mult af rf idx =
      if allOk o (radPairs r rf) (angPairs a af) mult idx then
        some (total o (radPairs r rf) (angPairs a af) mult idx) else none := by
  unfold symmetryDeterminer
  rw [angColumns_eq g1 h1, radColumns_eq g2 h2, mapM_if, mapM_if]
  unfold allOk
  by_cases ha : ∀ p ∈ angPairs a af, colOk (angF o p) p.1
  · rw [if_pos ha]
    by_cases hr : ∀ p ∈ radPairs r rf, colOk (radF o mult idx p) p.1
    · rw [if_pos hr, if_pos ⟨ha, hr⟩]
      simp only [Option.bind_eq_bind, Option.bind_some, List.map_map, Function.comp_def, dot_six]
      show some _ = some _
      rw [sum_sum_pull]; rfl
    · rw [if_neg hr, if_neg (fun h => hr h.2)]; rfl
  · have hn : ¬ ((∀ p ∈ angPairs a af, colOk (angF o p) p.1) ∧ ∀ p ∈ radPairs r rf, colOk (radF o mult idx p) p.1) :=
      fun h => ha h.1
    rw [if_neg ha, if_neg hn]; rfl

/-- Relabelling the modes does not change a symmetrised term of three different modes. -/
theorem determiner_relabel (h : Relabel σ o o') (g1 g2 g1' g2' : List ℝ) (h1 : g1.length = 6) (h2 : g2.length = 6)
    (h1' : g1'.length = 6) (h2' : g2'.length = 6) (a : Ang) (r : Rad) (mult af rf : List ℝ) (idx : Option ℕ) :
    symmetryDeterminer o' g1' g2' a r mult af rf idx = symmetryDeterminer o g1 g2 a r mult af rf idx := by
  classical
  have hrF : ∀ p t π, radF o' mult idx p (act t π) = radF o mult idx p (act t (π * σ⁻¹)) := by
    intro p t π; simp only [radF, h.radInt, act_act]
  have haF : ∀ p t π, angF o' p (act t π) = angF o p (act t (π * σ⁻¹)) := by
    intro p t π; simp only [angF, h.angInt, act_act]
  have hcol : ∀ (f f' : Term → Option ℝ) t, (∀ π, f' (act t π) = f (act t (π * σ⁻¹))) → (colOk f' t ↔ colOk f t) := by
    intro f f' t hf
    constructor
    · intro hh π; have := hh (π * σ); rwa [hf, mul_assoc, mul_inv_cancel, mul_one] at this
    · intro hh π; rw [hf]; exact hh _
  rw [determiner_eq g1' g2' h1' h2', determiner_eq g1 g2 h1 h2]
  have hok : allOk o' (radPairs r rf) (angPairs a af) mult idx ↔ allOk o (radPairs r rf) (angPairs a af) mult idx := by
    unfold allOk
    refine and_congr (forall_congr' fun p => imp_congr_right fun _ => hcol _ _ _ (haF p p.1))
      (forall_congr' fun p => imp_congr_right fun _ => hcol _ _ _ (hrF p p.1))
  have htot : total o' (radPairs r rf) (angPairs a af) mult idx = total o (radPairs r rf) (angPairs a af) mult idx := by
    unfold total
    rw [← Equiv.sum_comp (Equiv.mulRight σ⁻¹) (fun π : Perm (Fin 3) =>
      ((radPairs r rf).map fun p => colVal (radF o mult idx p) p.1 π).sum *
      ((angPairs a af).map fun p => colVal (angF o p) p.1 π).sum)]
    refine Finset.sum_congr rfl fun π _ => ?_
    simp only [colVal, hrF, haF, Equiv.coe_mulRight]
  rw [htot]
  simp only [hok]

end
end Verif.Coupling
