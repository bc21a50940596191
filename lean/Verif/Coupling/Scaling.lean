import Verif.Coupling.Props2
/-!
# Properties C68, C69: dependence on the amplitudes of the modes, and the mode norms
-/
namespace Verif.NumInt
open Verif

theorem rd_map {α β : Type} (l : List α) (g : α → β) (i : Int) : rd (l.map g) i = (rd l i).map g := by
  unfold rd; split
  · rfl
  · simp

theorem foldlM_scale (c : ℝ) (l : List ℕ) (lo : Int) (body body' : Int → ℝ → Option ℝ)
    (h : ∀ i a, body' i (c * a) = (body i a).map (c * ·)) (acc : ℝ) :
    l.foldlM (fun a (k : ℕ) => body' (lo + k) a) (c * acc) =
      (l.foldlM (fun a (k : ℕ) => body (lo + k) a) acc).map (c * ·) := by
  induction l generalizing acc with
  | nil => rfl
  | cons k l ih =>
    rw [List.foldlM_cons, List.foldlM_cons, h]
    cases body (lo + k) acc with
    | none => rfl
    | some v => simpa using ih v

theorem forUp_scale (c : ℝ) (lo hi : Int) (body body' : Int → ℝ → Option ℝ)
    (h : ∀ i a, body' i (c * a) = (body i a).map (c * ·)) (acc acc' : ℝ) (ha : acc' = c * acc) :
    forUp lo hi acc' body' = (forUp lo hi acc body).map (c * ·) := by
  subst ha; exact foldlM_scale c _ lo body body' h acc

theorem trapz_scale (c : ℝ) (o : Integrator ℝ) :
    trapz { o with my_integrand := o.my_integrand.map (c * ·) } = (trapz o).map (c * ·) := by
  unfold trapz
  simp only [rd_map]
  split
  · cases h1 : rd o.my_var 1 with
    | none => simp
    | some v1 =>
      cases h2 : rd o.my_var 0 with
      | none => simp
      | some v0 =>
        cases h3 : rd o.my_integrand 0 with
        | none => simp
        | some f0 =>
          cases h4 : rd o.my_integrand (o.arr_size - 1) with
          | none => simp
          | some fn =>
            simp only [Option.map_some, Option.bind_eq_bind, Option.bind_some]
            rw [forUp_scale c 1 (o.arr_size - 1) (fun i acc => (rd o.my_integrand i).bind fun fi => some (acc + fi)) _ ?_
              ((f0 + fn) / ((2 : ℕ) : ℝ)) _ (by ring)]
            · simp only [pure]
              cases forUp 1 (o.arr_size - 1) ((f0 + fn) / ((2 : ℕ) : ℝ))
                (fun i acc => (rd o.my_integrand i).bind fun fi => some (acc + fi)) with
              | none => rfl
              | some v => simp; ring
            · intro i a
              cases rd o.my_integrand i with
              | none => rfl
              | some v => simp; ring
  · refine forUp_scale c 1 o.arr_size _ _ ?_ _ _ (by simp)
    intro i a
    cases rd o.my_var i with
    | none => rfl
    | some xi =>
      cases rd o.my_var (i - 1) with
      | none => rfl
      | some xp =>
        cases rd o.my_integrand i with
        | none => rfl
        | some fi =>
          cases rd o.my_integrand (i - 1) with
          | none => rfl
          | some fp => simp; ring

theorem simpson_scale (c : ℝ) (o : Integrator ℝ) :
    simpson { o with my_integrand := o.my_integrand.map (c * ·) } = (simpson o).map (c * ·) := by
  unfold simpson
  simp only [rd_map, trapz_scale]
  split
  · split
    · rfl
    · cases h1 : rd o.my_var 1 with
      | none => simp
      | some v1 =>
        cases h2 : rd o.my_var 0 with
        | none => simp
        | some v0 =>
          cases h3 : rd o.my_integrand 0 with
          | none => simp
          | some f0 =>
            cases h4 : rd o.my_integrand (o.arr_size - 1) with
            | none => simp
            | some fn =>
              simp only [Option.map_some, Option.bind_eq_bind, Option.bind_some]
              rw [forUp_scale c 1 (o.arr_size.tdiv 2) (fun i acc => (rd o.my_integrand (2 * i - 1)).bind fun a =>
                (rd o.my_integrand (2 * i)).bind fun b => some (acc + (((4 : ℕ) : ℝ) * a + ((2 : ℕ) : ℝ) * b))) _ ?_
                (f0 + fn) _ (by ring)]
              · simp only [pure]
                cases forUp 1 (o.arr_size.tdiv 2) (f0 + fn) (fun i acc => (rd o.my_integrand (2 * i - 1)).bind fun a =>
                    (rd o.my_integrand (2 * i)).bind fun b => some (acc + (((4 : ℕ) : ℝ) * a + ((2 : ℕ) : ℝ) * b))) with
                | none => rfl
                | some v =>
                  cases rd o.my_integrand (o.arr_size - 1 - 1) with
                  | none => rfl
                  | some w => simp; ring
              · intro i a
                cases rd o.my_integrand (2 * i - 1) with
                | none => rfl
                | some v =>
                  cases rd o.my_integrand (2 * i) with
                  | none => rfl
                  | some w => simp; ring
  · rfl

theorem cni_scale (c : ℝ) (m : Mapper) (method : String) (es : Bool) (f x : List ℝ) (t : Int) (p : Bool) :
    (cniIntegrate m method es (f.map (c * ·)) x t p).1 = ((cniIntegrate m method es f x t p).1).map (c * ·) := by
  unfold cniIntegrate mk
  simp only [List.length_map]
  unfold integrate
  simp only
  split
  · exact trapz_scale c ⟨p, t, f.length, f, x, es, (mapperIndex m method).1⟩
  · split
    · exact simpson_scale c ⟨p, t, f.length, f, x, es, (mapperIndex m method).1⟩
    · exact trapz_scale c ⟨p, t, f.length, f, x, es, (mapperIndex m method).1⟩

end Verif.NumInt

namespace Verif.Coupling
open Finset Equiv NumInt NumInt.Spec
noncomputable section

/-- `o'` is `o` with the radial profiles of mode `k` multiplied by `c k` and its Hough functions by `d k`;
everything else is the same. -/
structure Scaled (c d : Fin 3 → ℝ) (o o' : Obj) : Prop where
  rad : ∀ b ∈ radialNames ++ ["_x_z_1", "_x_z_2_over_c_1_omega"], ∀ k : Fin 3,
    o'.attr (name b (k + 1)) = (o.attr (name b (k + 1))).map (List.map (c k * ·))
  ang : ∀ b ∈ angularNames, ∀ k : Fin 3,
    o'.attr (name ("_" ++ b) (k + 1)) = (o.attr (name ("_" ++ b) (k + 1))).map (List.map (d k * ·))
  rest : o' = { o with attr := o'.attr }

theorem mul_scale_left (c : ℝ) (a b : List ℝ) : mul (a.map (c * ·)) b = (mul a b).map (c * ·) := by
  unfold mul; rw [List.zipWith_map_left, List.map_zipWith]; congr 1; funext x y; ring
theorem mul_scale_right (c : ℝ) (a b : List ℝ) : mul a (b.map (c * ·)) = (mul a b).map (c * ·) := by
  rw [mul_comm', mul_scale_left, mul_comm']
theorem map_scale_scale (c d : ℝ) (a : List ℝ) : (a.map (c * ·)).map (d * ·) = a.map (c * d * ·) := by
  rw [List.map_map]; congr 1; funext x; simp; ring

theorem combine_scale (c1 c2 c3 : ℝ) (p q r : Option (List ℝ)) :
    combine (p.map (List.map (c1 * ·))) (q.map (List.map (c2 * ·))) (r.map (List.map (c3 * ·))) =
      (combine p q r).map (List.map (c1 * c2 * c3 * ·)) := by
  rcases p with _ | p <;> rcases q with _ | q <;> rcases r with _ | r <;> simp [combine]
  split
  · simp only [mul_scale_left, mul_scale_right, map_scale_scale]
  · rfl

theorem radint_scale (o : Obj) (c : ℝ) (f x : List ℝ) (idx : Option ℕ) :
    radint o (f.map (c * ·)) x idx = (radint o f x idx).map (c * ·) := by
  unfold radint
  have : cut idx (f.map (c * ·)) = (cut idx f).map (c * ·) := by
    cases idx <;> simp [cut]
  rw [this, cni_scale]

variable {c d : Fin 3 → ℝ} {o o' : Obj}

theorem Scaled.radInt (h : Scaled c d o o') (t : Term) (ht : IsRadial t) (mult : List ℝ) (idx : Option ℕ) :
    Coupling.radInt o' t mult idx = (Coupling.radInt o t mult idx).map (c 0 * c 1 * c 2 * ·) := by
  have h0 := h.rad t.1 (List.mem_append_left _ ht.1) 0
  have h1 := h.rad t.2.1 (List.mem_append_left _ ht.2.1) 1
  have h2 := h.rad t.2.2 (List.mem_append_left _ ht.2.2) 2
  have h0 : o'.attr (name (t.get 0) 1) = (o.attr (name (t.get 0) 1)).map (List.map (c 0 * ·)) := h0
  have h1 : o'.attr (name (t.get 1) 2) = (o.attr (name (t.get 1) 2)).map (List.map (c 1 * ·)) := h1
  have h2 : o'.attr (name (t.get 2) 3) = (o.attr (name (t.get 2) 3)).map (List.map (c 2 * ·)) := h2
  rw [radInt_combine, radInt_combine, h0, h1, h2, combine_scale]
  cases combine (o.attr (name (t.get 0) 1)) (o.attr (name (t.get 1) 2)) (o.attr (name (t.get 2) 3)) with
  | none => rfl
  | some p =>
    simp only [Option.map_some, Option.bind_some]
    have hro : radOf o' mult idx = radOf o mult idx := by rw [h.rest]; rfl
    rw [hro]
    unfold radOf
    simp only [List.length_map]
    split
    · rw [mul_scale_left, mul_scale_left, radint_scale]
    · rfl

/-- A term of angular names. -/
def IsAngular (t : Term) : Prop := t.1 ∈ angularNames ∧ t.2.1 ∈ angularNames ∧ t.2.2 ∈ angularNames
instance (t : Term) : Decidable (IsAngular t) := by unfold IsAngular; infer_instance

/-- Either only the radial profiles are rescaled, or the angular integrals are taken without the
Chebyshev options. -/
def Linear (o : Obj) (d : Fin 3 → ℝ) : Prop := (o.useCheby = false ∧ o.protect = false) ∨ ∀ k, d k = 1

theorem theta_scale (o o' : AngInt.Obj) (ds : List String) (op : AngInt.Opts) (hu : op.useCheby = false)
    (hp : op.protect = false) (D : ℝ) (hmu : o'.mu = o.mu)
    (h : AngInt.product o' ds = (AngInt.product o ds).map (List.map (D * ·))) :
    val (AngInt.thetaIntegral o' ds op) = (val (AngInt.thetaIntegral o ds op)).map (D * ·) := by
  unfold AngInt.thetaIntegral
  rw [h, hmu]
  cases AngInt.product o ds with
  | none => rfl
  | some p =>
    simp only [Option.map_some, List.length_map, hu, hp, Bool.false_eq_true, if_false]
    split
    · rfl
    · have e : (if op.mulWithMu = true then AngInt.arrMul (p.map (D * ·)) o.mu else p.map (D * ·)) =
          (if op.mulWithMu = true then AngInt.arrMul p o.mu else p).map (D * ·) := by
        split
        · exact mul_scale_left D p o.mu
        · rfl
      rw [e]
      generalize (if op.mulWithMu = true then AngInt.arrMul p o.mu else p) = q
      have e' : (if op.divBySin = true then AngInt.arrDiv (q.map (D * ·)) (AngInt.sinArr o.mu) else q.map (D * ·)) =
          (if op.divBySin = true then AngInt.arrDiv q (AngInt.sinArr o.mu) else q).map (D * ·) := by
        split
        · unfold AngInt.arrDiv; rw [List.zipWith_map_left, List.map_zipWith]; congr 1; funext x y; ring
        · rfl
      rw [e']
      unfold AngInt.regular
      rw [cni_scale]
      cases (NumInt.cniIntegrate NumInt.mapper0 op.method true
        (if op.divBySin = true then AngInt.arrDiv q (AngInt.sinArr o.mu) else q) o.mu 4 false).1 <;> rfl

theorem angular_scale (o o' : AngInt.Obj) (ds : List String) (op : AngInt.Opts) (hu : op.useCheby = false)
    (hp : op.protect = false) (D : ℝ) (hmu : o'.mu = o.mu) (mList : Option (List ℤ)) (b : Bool) (conj : AngInt.Conj)
    (h : AngInt.product o' ds = (AngInt.product o ds).map (List.map (D * ·))) :
    val (AngInt.angularIntegral o' ds mList b conj op) = (val (AngInt.angularIntegral o ds mList b conj op)).map (D * ·) := by
  have key := theta_scale o o' ds op hu hp D hmu h
  have hgo : val (match AngInt.thetaIntegral o' ds op with
      | .ok v => .ok (2 * Real.pi * v) | .exited => .exited | .raised => .raised) =
      (val (match AngInt.thetaIntegral o ds op with
      | .ok v => .ok (2 * Real.pi * v) | .exited => .exited | .raised => .raised)).map (D * ·) := by
    cases h1 : AngInt.thetaIntegral o' ds op <;> cases h2 : AngInt.thetaIntegral o ds op <;>
      rw [h1, h2] at key <;> simp [val] at key ⊢
    rw [key]; ring
  unfold AngInt.angularIntegral
  cases b with
  | true => exact hgo
  | false =>
    cases mList with
    | none => exact hgo
    | some ms =>
      simp only
      cases AngInt.adapt conj ms with
      | exited => rfl
      | raised => rfl
      | ok a =>
        simp only
        split
        · exact hgo
        · simp [val]

theorem Scaled.angInt (h : Scaled c d o o') (hl : Linear o d) (t : Term) (ht : IsAngular t) (dv : Bool) :
    Coupling.angInt o' t dv = (Coupling.angInt o t dv).map (d 0 * d 1 * d 2 * ·) := by
  have h0 : o'.attr (name ("_" ++ t.1) 1) = (o.attr (name ("_" ++ t.1) 1)).map (List.map (d 0 * ·)) := h.ang _ ht.1 0
  have h1 : o'.attr (name ("_" ++ t.2.1) 2) = (o.attr (name ("_" ++ t.2.1) 2)).map (List.map (d 1 * ·)) := h.ang _ ht.2.1 1
  have h2 : o'.attr (name ("_" ++ t.2.2) 3) = (o.attr (name ("_" ++ t.2.2) 3)).map (List.map (d 2 * ·)) := h.ang _ ht.2.2 2
  have e : Coupling.angInt o' t dv = val (AngInt.angularIntegral (angObj o')
      [name ("_" ++ t.1) 1, name ("_" ++ t.2.1) 2, name ("_" ++ t.2.2) 3] (some o.mList) false o.conj (angOpts o dv)) := by
    unfold Coupling.angInt; rw [h.rest]; rfl
  have hprod : AngInt.product (angObj o') [name ("_" ++ t.1) 1, name ("_" ++ t.2.1) 2, name ("_" ++ t.2.2) 3] =
      (AngInt.product (angObj o) [name ("_" ++ t.1) 1, name ("_" ++ t.2.1) 2, name ("_" ++ t.2.2) 3]).map
        (List.map (d 0 * d 1 * d 2 * ·)) := by
    rw [product_combine, product_combine]
    simp only [angObj]
    rw [h0, h1, h2, combine_scale]
  rw [e]
  rcases hl with hl | hl
  · exact angular_scale (angObj o) (angObj o') _ _ hl.1 hl.2 _ (by rw [h.rest]; rfl) _ _ _ hprod
  · simp only [hl, mul_one, one_mul, List.map_id_fun', Option.map_id_fun', Option.map_id, id_eq] at hprod ⊢
    unfold Coupling.angInt AngInt.angularIntegral
    rw [thetaIntegral_congr (angObj o') (angObj o) _ _ _ hprod (by rw [h.rest]; rfl)]

theorem scaled_colVal (F F' : Term → Option ℝ) (C : ℝ) (t : Term) (h : ∀ π, F' (act t π) = (F (act t π)).map (C * ·)) :
    (colOk F' t ↔ colOk F t) ∧ ∀ π, colVal F' t π = C * colVal F t π := by
  constructor
  · unfold colOk; refine forall_congr' fun π => ?_; rw [h]; simp
  · intro π; unfold colVal; rw [h]; cases F (act t π) <;> simp

theorem Scaled.sym (h : Scaled c d o o') (hl : Linear o d) (hs : o.selfCoupling = false) (g g' : Garbage) (hg : GoodGarbage g)
    (hg' : GoodGarbage g') (j : ℕ) (r : Term) (hr : IsRadial r) (mult : List ℝ) (angs : List (Term × Bool × ℝ))
    (ha : ∀ p ∈ angs, IsAngular p.1) (idx : Option ℕ) :
    Coupling.sym o' g' j r mult angs idx =
      (Coupling.sym o g j r mult angs idx).map (c 0 * c 1 * c 2 * (d 0 * d 1 * d 2) * ·) := by
  classical
  have hs' : o'.selfCoupling = false := by rw [h.rest]; exact hs
  unfold Coupling.sym
  rw [sTerm, sTerm, if_neg (by simp [hs']), if_neg (by simp [hs]), determiner_eq _ _ (hg' j).1 (hg' j).2,
    determiner_eq _ _ (hg j).1 (hg j).2]
  have e2 : angPairs (.many (angs.map (·.1)) (angs.map (·.2.1))) (angs.map (·.2.2)) =
    angs.map fun p => (p.1, some p.2.1, some p.2.2) := zipIdx_get2 angs
  rw [e2]
  have hrad : ∀ p ∈ radPairs (.one r) [1], ∀ π, radF o' mult idx p (act p.1 π) =
      (radF o mult idx p (act p.1 π)).map (c 0 * c 1 * c 2 * ·) := by
    intro p hp π
    simp only [radPairs, List.mem_singleton] at hp
    subst hp
    unfold radF
    rw [h.radInt _ (act_mem (· ∈ radialNames) r hr π)]
    cases Coupling.radInt o (act r π) mult idx <;> simp [scaled]
  have hang : ∀ p ∈ angs.map (fun p => (p.1, some p.2.1, some p.2.2)), ∀ π, angF o' p (act p.1 π) =
      (angF o p (act p.1 π)).map (d 0 * d 1 * d 2 * ·) := by
    intro p hp π
    obtain ⟨q, hq, rfl⟩ := List.mem_map.1 hp
    unfold angF
    simp only [Option.bind_some]
    rw [h.angInt hl _ (act_mem (· ∈ angularNames) q.1 (ha q hq) π)]
    cases Coupling.angInt o (act q.1 π) q.2.1 <;> simp [scaled]
    ring
  have hok : allOk o' (radPairs (.one r) [1]) (angs.map fun p => (p.1, some p.2.1, some p.2.2)) mult idx ↔
      allOk o (radPairs (.one r) [1]) (angs.map fun p => (p.1, some p.2.1, some p.2.2)) mult idx := by
    unfold allOk
    exact and_congr (forall_congr' fun p => forall_congr' fun hp => (scaled_colVal _ _ _ _ (hang p hp)).1)
      (forall_congr' fun p => forall_congr' fun hp => (scaled_colVal _ _ _ _ (hrad p hp)).1)
  have htot : total o' (radPairs (.one r) [1]) (angs.map fun p => (p.1, some p.2.1, some p.2.2)) mult idx =
      c 0 * c 1 * c 2 * (d 0 * d 1 * d 2) *
        total o (radPairs (.one r) [1]) (angs.map fun p => (p.1, some p.2.1, some p.2.2)) mult idx := by
    unfold total
    rw [Finset.mul_sum]
    refine Finset.sum_congr rfl fun π _ => ?_
    rw [List.map_congr_left fun p hp => (scaled_colVal _ _ _ _ (hrad p hp)).2 π,
      List.map_congr_left fun p hp => (scaled_colVal _ _ _ _ (hang p hp)).2 π, List.sum_map_mul_left, List.sum_map_mul_left]
    ring
  simp only [hok]
  split
  · rw [htot]; rfl
  · rfl

theorem bind_scale {x x' : Option ℝ} {L M : ℝ} (hx : x' = x.map (L * ·)) {F F' : ℝ → Option ℝ}
    (h : ∀ v, F' (L * v) = (F v).map (M * ·)) : x'.bind F' = (x.bind F).map (M * ·) := by
  subst hx; cases x with
  | none => rfl
  | some v => exact h v

/-- **C68.** The coupling coefficient and each of its four terms are proportional to the amplitude of
each mode: multiplying the radial profiles of mode `k` by `c k` and its Hough functions by `d k`
multiplies them by the product of all these factors.  (With the Chebyshev options, for the radial
profiles only.) -/
theorem C68_multilinear (h : Scaled c d o o') (hl : Linear o d) (hs : o.selfCoupling = false) (g g' : Garbage)
    (hg : GoodGarbage g) (hg' : GoodGarbage g') (idx : Option ℕ) :
    coupling o' g' idx = (coupling o g idx).map fun r =>
      (c 0 * c 1 * c 2 * (d 0 * d 1 * d 2) * r.1, r.2.map (c 0 * c 1 * c 2 * (d 0 * d 1 * d 2) * ·)) := by
  have hsym := h.sym hl hs g g' hg hg'
  have hsym1 : ∀ j r, IsRadial r → ∀ mult a, IsAngular a → ∀ idx, sym1 o' g' j r mult a idx =
      (sym1 o g j r mult a idx).map (c 0 * c 1 * c 2 * (d 0 * d 1 * d 2) * ·) := by
    intro j r hr mult a ha idx
    rw [sym1_eq_sym o' g' hg', sym1_eq_sym o g hg]
    exact hsym j r hr mult _ (by simpa using ha) idx
  have hr := fun t ht mult => h.radInt t ht mult idx
  have ha := h.angInt hl
  have e1 : mult1 o' = mult1 o := by rw [h.rest]; rfl
  have e2 : mult2 o' = mult2 o := by rw [h.rest]; rfl
  have e3 : o'.PNormed = o.PNormed := by rw [h.rest]
  have e4 : mult4a o' = mult4a o := by rw [h.rest]; rfl
  have e5 : mult4b o' = mult4b o := by rw [h.rest]; rfl
  have e6 : o'.normP = o.normP := by rw [h.rest]
  have e7 : o'.normRho = o.normRho := by rw [h.rest]
  have e8 : o'.R = o.R := by rw [h.rest]
  generalize hC : c 0 * c 1 * c 2 = C at *
  generalize hD : d 0 * d 1 * d 2 = D at *
  have k1 : kappa1 o' g' idx = (kappa1 o g idx).map (C * D * ·) := by
    unfold kappa1
    rw [e1, e6, e8]
    refine bind_scale (hsym1 _ _ (by decide) _ _ (by decide) _) fun v => ?_
    refine bind_scale (hsym _ _ (by decide) _ _ (by decide) _) fun v => ?_
    refine bind_scale (hsym1 _ _ (by decide) _ _ (by decide) _) fun v => ?_
    refine bind_scale (hsym _ _ (by decide) _ _ (by decide) _) fun v => ?_
    refine bind_scale (hsym _ _ (by decide) _ _ (by decide) _) fun v => ?_
    refine bind_scale (hsym _ _ (by decide) _ _ (by decide) _) fun v => ?_
    show some _ = some _
    congr 1; ring
  have k2 : kappa2 o' idx = (kappa2 o idx).map (C * D * ·) := by
    unfold kappa2
    rw [e2, e6, e8]
    refine bind_scale (hr _ (by decide) _) fun v => ?_
    refine bind_scale (ha _ (by decide) _) fun v => ?_
    show some _ = some _
    congr 1; ring
  have k3 : kappa3 o' g' idx = (kappa3 o g idx).map (C * D * ·) := by
    unfold kappa3
    rw [e3, e6, e8]
    refine bind_scale (hsym _ _ (by decide) _ _ (by decide) _) fun v => ?_
    refine bind_scale (hsym _ _ (by decide) _ _ (by decide) _) fun v => ?_
    refine bind_scale (hsym _ _ (by decide) _ _ (by decide) _) fun v => ?_
    refine bind_scale (hsym _ _ (by decide) _ _ (by decide) _) fun v => ?_
    refine bind_scale (hsym _ _ (by decide) _ _ (by decide) _) fun v => ?_
    refine bind_scale (hsym _ _ (by decide) _ _ (by decide) _) fun v => ?_
    refine bind_scale (hsym _ _ (by decide) _ _ (by decide) _) fun v => ?_
    refine bind_scale (hsym _ _ (by decide) _ _ (by decide) _) fun v => ?_
    refine bind_scale (hr _ (by decide) _) fun v => ?_
    refine bind_scale (hr _ (by decide) _) fun v => ?_
    refine bind_scale (ha _ (by decide) _) fun v => ?_
    refine bind_scale (hr _ (by decide) _) fun v => ?_
    refine bind_scale (ha _ (by decide) _) fun v => ?_
    refine bind_scale (ha _ (by decide) _) fun v => ?_
    show some _ = some _
    congr 1; ring
  have k4 : kappa4 o' g' idx = (kappa4 o g idx).map (C * D * ·) := by
    unfold kappa4
    rw [e4, e5, e7, e8]
    refine bind_scale (hsym _ _ (by decide) _ _ (by decide) _) fun v => ?_
    refine bind_scale (hr _ (by decide) _) fun v => ?_
    refine bind_scale (ha _ (by decide) _) fun v => ?_
    show some _ = some _
    congr 1; ring
  unfold coupling
  rw [k1, k2, k3, k4]
  simp only [Option.bind_eq_bind, Option.bind_map, Option.map_bind, Function.comp_def, pure, Option.map_some]
  repeat refine congrArg _ (funext fun v => ?_)
  simp only [List.map_cons, List.map_nil]
  congr 2; ring

end
end Verif.Coupling
