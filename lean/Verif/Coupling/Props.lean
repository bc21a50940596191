import Verif.Coupling.Relabel
import Verif.NumInt.Props
/-!
# Properties C50, C65–C68: the quadratic coupling coefficient
-/
namespace Verif.Coupling
open Finset Equiv NumInt NumInt.Spec
noncomputable section

/-! ### C50: symmetrised terms -/

/-- The specification: names of a term distributed over the modes by a permutation; mode `k` gets name
`π k`. -/
def Spec.distribute (t : Term) (π : Perm (Fin 3)) : Term :=
  let n : Fin 3 → String := ![t.1, t.2.1, t.2.2]
  (n (π 0), n (π 1), n (π 2))

/-- The specification of the symmetric sum: over all ways to distribute the three operators over the
three modes (the same way in the radial and the angular part), the weighted radial integrals times the
weighted angular integrals. -/
def Spec.S (rs : List (Term × ℝ)) (as : List (Term × Bool × ℝ)) (R : Term → ℝ) (A : Term → Bool → ℝ) : ℝ :=
  ∑ π : Perm (Fin 3), (rs.map fun p => p.2 * R (Spec.distribute p.1 π)).sum *
    (as.map fun p => p.2.2 * A (Spec.distribute p.1 π) p.2.1).sum

theorem zipIdx_get {α β : Type} (l : List (α × β)) : ((l.map (·.1)).zipIdx.map fun p => (p.1, (l.map (·.2))[p.2]?)) =
    l.map fun p => (p.1, some p.2) := by
  apply List.ext_getElem
  · simp
  · intro i h1 h2; simp at h1; simp [h1]

theorem zipIdx_get2 (l : List (Term × Bool × ℝ)) :
    ((l.map (·.1)).zipIdx.map fun p => (p.1, (l.map (·.2.1))[p.2]?, (l.map (·.2.2))[p.2]?)) =
    l.map fun p => (p.1, some p.2.1, some p.2.2) := by
  apply List.ext_getElem
  · simp
  · intro i h1 h2; simp at h1; simp [h1]

theorem determiner_core (o : Obj) (g1 g2 : List ℝ) (h1 : g1.length = 6) (h2 : g2.length = 6) (a : Ang) (r : Rad)
    (rs : List (Term × ℝ)) (as : List (Term × Bool × ℝ)) (mult af rf : List ℝ) (idx : Option ℕ)
    (hr : radPairs r rf = rs.map fun p => (p.1, some p.2))
    (ha : angPairs a af = as.map fun p => (p.1, some p.2.1, some p.2.2))
    (R : Term → ℝ) (A : Term → Bool → ℝ)
    (hR : ∀ p ∈ rs, ∀ π, radInt o (Spec.distribute p.1 π) mult idx = some (R (Spec.distribute p.1 π)))
    (hA : ∀ p ∈ as, ∀ π, angInt o (Spec.distribute p.1 π) p.2.1 = some (A (Spec.distribute p.1 π) p.2.1)) :
    symmetryDeterminer o g1 g2 a r mult af rf idx = some (Spec.S rs as R A) := by
  classical
  have hd : ∀ t π, act t π = Spec.distribute t π := fun t π => rfl
  rw [determiner_eq g1 g2 h1 h2, hr, ha, if_pos]
  · congr 1
    unfold total Spec.S
    refine Finset.sum_congr rfl fun π _ => ?_
    rw [List.map_map, List.map_map]
    congr 2
    · refine List.map_congr_left fun p hp => ?_
      simp [colVal, radF, scaled, hd, hR p hp π]
    · refine List.map_congr_left fun p hp => ?_
      simp [colVal, angF, scaled, hd, hA p hp π]
  · constructor
    · intro p hp π
      obtain ⟨q, hq, rfl⟩ := List.mem_map.1 hp
      simp [angF, scaled, hd, hA q hq π]
    · intro p hp π
      obtain ⟨q, hq, rfl⟩ := List.mem_map.1 hp
      simp [radF, scaled, hd, hR q hq π]

/-- **C50.** For three modes, a symmetrised term with any numbers of radial and angular terms is the sum
over the six ways of distributing the operators over the modes, each counted once although equal
distributions are only computed once, whatever was in the uninitialised result arrays. -/
theorem C50_S_operator (o : Obj) (hs : o.selfCoupling = false) (g1 g2 : List ℝ) (h1 : g1.length = 6) (h2 : g2.length = 6)
    (rs : List (Term × ℝ)) (as : List (Term × Bool × ℝ)) (mult : List ℝ) (idx : Option ℕ)
    (R : Term → ℝ) (A : Term → Bool → ℝ)
    (hR : ∀ p ∈ rs, ∀ π, radInt o (Spec.distribute p.1 π) mult idx = some (R (Spec.distribute p.1 π)))
    (hA : ∀ p ∈ as, ∀ π, angInt o (Spec.distribute p.1 π) p.2.1 = some (A (Spec.distribute p.1 π) p.2.1)) :
    sTerm o g1 g2 (.many (rs.map (·.1))) mult (.many (as.map (·.1)) (as.map (·.2.1))) (as.map (·.2.2))
      (rs.map (·.2)) idx = some (Spec.S rs as R A) := by
  rw [sTerm, if_neg (by simp [hs])]
  have e1 : radPairs (.many (rs.map (·.1))) (rs.map (·.2)) = rs.map fun p => (p.1, some p.2) := zipIdx_get rs
  have e2 : angPairs (.many (as.map (·.1)) (as.map (·.2.1))) (as.map (·.2.2)) =
    as.map fun p => (p.1, some p.2.1, some p.2.2) := zipIdx_get2 as
  exact determiner_core o g1 g2 h1 h2 _ _ rs as mult _ _ idx e1 e2 R A hR hA

/-- **C50.** The same for a single radial term, as in all terms of the coefficient. -/
theorem C50_S_operator_single (o : Obj) (hs : o.selfCoupling = false) (g1 g2 : List ℝ) (h1 : g1.length = 6)
    (h2 : g2.length = 6) (r : Term) (f : ℝ) (as : List (Term × Bool × ℝ)) (mult : List ℝ) (idx : Option ℕ)
    (R : Term → ℝ) (A : Term → Bool → ℝ)
    (hR : ∀ π, radInt o (Spec.distribute r π) mult idx = some (R (Spec.distribute r π)))
    (hA : ∀ p ∈ as, ∀ π, angInt o (Spec.distribute p.1 π) p.2.1 = some (A (Spec.distribute p.1 π) p.2.1)) :
    sTerm o g1 g2 (.one r) mult (.many (as.map (·.1)) (as.map (·.2.1))) (as.map (·.2.2)) [f] idx =
      some (Spec.S [(r, f)] as R A) := by
  rw [sTerm, if_neg (by simp [hs])]
  have e1 : radPairs (.one r) [f] = [(r, f)].map fun p => (p.1, some p.2) := rfl
  have e2 : angPairs (.many (as.map (·.1)) (as.map (·.2.1))) (as.map (·.2.2)) =
    as.map fun p => (p.1, some p.2.1, some p.2.2) := zipIdx_get2 as
  exact determiner_core o g1 g2 h1 h2 _ _ [(r, f)] as mult _ _ idx e1 e2 R A (by simpa using hR) hA

/-- The arrays of a slice. -/
theorem cut_tab {α : Type} (n i : ℕ) (f : ℕ → α) : cut (some i) (tab n f) = tab (min i n) f := by
  simp [cut, tab, List.take_range, ← List.map_take]

theorem mul_tab (n : ℕ) (f g : ℕ → ℝ) : mul (tab n f) (tab n g) = tab n fun i => f i * g i := by
  simp [mul, tab, List.zipWith_map, List.zipWith_self]

theorem radint_tab (o : Obj) (n : ℕ) (f ξ : ℕ → ℝ) :
    radint o (tab n f) (tab n ξ) none = some (trapSum n ξ f) := by
  unfold radint cut
  have h := cni_eq [] o.method false (tab n f) (tab n ξ) o.threads o.parallel
  rw [show mapper0 = mapperAfter [] from rfl, h]
  split
  · rw [simpson, if_neg (by simp [obj])]; exact trapz_tab_uneven o.method n ξ f o.threads o.parallel
  · exact trapz_tab_uneven o.method n ξ f o.threads o.parallel

theorem radint_cut (o : Obj) (n i : ℕ) (f ξ : ℕ → ℝ) :
    radint o (tab n f) (tab n ξ) (some i) = some (trapSum (min i n) ξ f) := by
  have := radint_tab o (min i n) f ξ
  unfold radint at this ⊢
  rw [cut_tab, cut_tab]; exact this

/-- **C50.** The radial factor of a term is the trapezoidal integral over the grid of the product of one
profile of each mode, the given multiplier and the squared radius. -/
theorem C50_radial (o : Obj) (t : Term) (n : ℕ) (p1 p2 p3 M ξ : ℕ → ℝ) (hx : o.x = tab n ξ)
    (h1 : o.attr (name t.1 1) = some (tab n p1)) (h2 : o.attr (name t.2.1 2) = some (tab n p2))
    (h3 : o.attr (name t.2.2 3) = some (tab n p3)) :
    radInt o t (tab n M) none = some (trapSum n ξ fun j => p1 j * p2 j * p3 j * M j * ξ j ^ 2) ∧
    ∀ i, radInt o t (tab n M) (some i) =
      some (trapSum (min i n) ξ fun j => p1 j * p2 j * p3 j * M j * ξ j ^ 2) := by
  have e : (tab n ξ).map (fun v => v ^ 2) = tab n fun j => ξ j ^ 2 := by simp [tab]
  unfold radInt
  simp only [h1, h2, h3, hx, Option.bind_eq_bind, Option.bind_some, length_tab, e, mul_tab, and_self, if_true]
  exact ⟨radint_tab o n _ ξ, fun i => radint_cut o n i _ ξ⟩

/-- **C50.** A symmetrised term of three modes does not change when the modes are relabelled. -/
theorem C50_relabel (σ : Perm (Fin 3)) (o o' : Obj) (h : Relabel σ o o') (hs : o.selfCoupling = false)
    (g1 g2 g1' g2' : List ℝ) (h1 : g1.length = 6) (h2 : g2.length = 6) (h1' : g1'.length = 6) (h2' : g2'.length = 6)
    (r : Rad) (a : Ang) (mult af rf : List ℝ) (idx : Option ℕ) :
    sTerm o' g1' g2' r mult a af rf idx = sTerm o g1 g2 r mult a af rf idx := by
  have hs' : o'.selfCoupling = false := by rw [h.rest]; exact hs
  rw [sTerm, sTerm, if_neg (by simp [hs']), if_neg (by simp [hs])]
  exact determiner_relabel h g1 g2 g1' g2' h1 h2 h1' h2' a r mult af rf idx

/-- The three modes of an object are the same mode. -/
def Identical (o : Obj) : Prop := ∀ (base : String) (k : Fin 3), o.attr (name base (k + 1)) = o.attr (name base 1)

theorem identical_radInt (o : Obj) (h : Identical o) (t : Term) (π : Perm (Fin 3)) (mult : List ℝ) (idx : Option ℕ) :
    radInt o (act t π) mult idx = radInt o t mult idx := by
  have e := fun b => h b 1
  have e' := fun b => h b 2
  simp only [Fin.isValue, Fin.val_one, Fin.val_two, Nat.reduceAdd] at e e'
  rw [radInt_combine, radInt_combine]
  simp only [act, get_ofGet, Function.comp, e, e']
  rw [combine_perm (fun k => o.attr (name (t.get k) 1)) π]

theorem identical_angInt (o : Obj) (h : Identical o) (t : Term) (π : Perm (Fin 3)) (d : Bool) :
    angInt o (act t π) d = angInt o t d := by
  have e := fun b => h b 1
  have e' := fun b => h b 2
  simp only [Fin.isValue, Fin.val_one, Fin.val_two, Nat.reduceAdd] at e e'
  unfold angInt AngInt.angularIntegral
  have : AngInt.thetaIntegral (angObj o) [name ("_" ++ (act t π).1) 1, name ("_" ++ (act t π).2.1) 2,
        name ("_" ++ (act t π).2.2) 3] (angOpts o d) =
      AngInt.thetaIntegral (angObj o) [name ("_" ++ t.1) 1, name ("_" ++ t.2.1) 2, name ("_" ++ t.2.2) 3] (angOpts o d) := by
    refine thetaIntegral_congr _ _ _ _ _ ?_ rfl
    rw [product_combine, product_combine]
    have := combine_perm (fun k => o.attr (name ("_" ++ t.get k) 1)) π
    simp only [angObj, e, e']
    exact this
  rw [this]

/-- **C50, self-coupling.** When the three modes are the same mode the general formula is six times the
weighted sums of the radial and angular integrals, while the self-coupling shortcut drops the weights. -/
theorem C50_self_coupling_values (o : Obj) (hi : Identical o) (g1 g2 : List ℝ) (h1 : g1.length = 6) (h2 : g2.length = 6)
    (r : Term) (f : ℝ) (as : List (Term × Bool × ℝ)) (mult : List ℝ) (idx : Option ℕ) (R : ℝ) (A : Term → Bool → ℝ)
    (hR : radInt o r mult idx = some R) (hA : ∀ p ∈ as, angInt o p.1 p.2.1 = some (A p.1 p.2.1)) :
    sTerm { o with selfCoupling := false } g1 g2 (.one r) mult (.many (as.map (·.1)) (as.map (·.2.1)))
        (as.map (·.2.2)) [f] idx = some (6 * (f * R) * (as.map fun p => p.2.2 * A p.1 p.2.1).sum) ∧
    sTerm { o with selfCoupling := true } g1 g2 (.one r) mult (.many (as.map (·.1)) (as.map (·.2.1)))
        (as.map (·.2.2)) [f] idx = some (6 * R * (as.map fun p => A p.1 p.2.1).sum) := by
  classical
  have hrad : ∀ b t, radInt { o with selfCoupling := b } t mult idx = radInt o t mult idx := fun b t => rfl
  have hang : ∀ b t d, angInt { o with selfCoupling := b } t d = angInt o t d := fun b t d => rfl
  constructor
  · have hd : ∀ t π, Spec.distribute t π = act t π := fun t π => rfl
    rw [C50_S_operator_single { o with selfCoupling := false } rfl g1 g2 h1 h2 r f as mult idx (fun _ => R)
      (fun t d => (angInt o t d).getD 0)]
    · congr 1
      unfold Spec.S
      have e : ∀ π : Perm (Fin 3), (([(r, f)] : List (Term × ℝ)).map fun p => p.2 * R).sum *
          (as.map fun p => p.2.2 * (angInt o (Spec.distribute p.1 π) p.2.1).getD 0).sum =
          f * R * (as.map fun p => p.2.2 * A p.1 p.2.1).sum := by
        intro π
        congr 1
        · simp
        · congr 1
          refine List.map_congr_left fun p hp => ?_
          rw [hd, identical_angInt o hi, hA p hp]; rfl
      rw [Finset.sum_congr rfl fun π _ => e π, Finset.sum_const]
      simp [Fintype.card_perm, Nat.factorial]; ring
    · intro π; rw [hrad, hd, identical_radInt o hi, hR]
    · intro p hp π; rw [hang, hd, identical_angInt o hi, hA p hp]; rfl
  · rw [sTerm, if_pos rfl]
    have hfold : ∀ (l : List (Term × Bool × ℝ)) (acc : ℝ), (∀ p ∈ l, angInt o p.1 p.2.1 = some (A p.1 p.2.1)) →
        (List.zip (l.map (·.1)) (l.map (·.2.1))).foldlM (fun acc (p : Term × Bool) => do
          let v ← angInt { o with selfCoupling := true } p.1 p.2
          pure (acc + v)) acc = some (acc + (l.map fun p => A p.1 p.2.1).sum) := by
      intro l
      induction l with
      | nil => intro acc _; simp
      | cons p l ih =>
        intro acc hl
        simp only [List.map_cons, List.zip_cons_cons, List.foldlM_cons, hang, hl p List.mem_cons_self,
          Option.bind_eq_bind, Option.bind_some, List.sum_cons]
        rw [← add_assoc]
        exact ih _ fun q hq => hl q (List.mem_cons_of_mem _ hq)
    have hf := hfold as 0 hA
    rw [zero_add] at hf
    simp only [hf]
    simp only [Option.bind_eq_bind, Option.bind_some, hrad, hR]
    by_cases h : (as.map fun p => A p.1 p.2.1).sum = 0
    · rw [if_pos h, h, mul_zero]; rfl
    · rw [if_neg h]; simp only [pure]; congr 1; ring

/-- **C50, self-coupling.** With unit factors the shortcut agrees with the general formula. -/
theorem C50_self_coupling_partial (o : Obj) (hi : Identical o) (g1 g2 : List ℝ) (h1 : g1.length = 6) (h2 : g2.length = 6)
    (r : Term) (as : List (Term × Bool × ℝ)) (mult : List ℝ) (idx : Option ℕ) (R : ℝ) (A : Term → Bool → ℝ)
    (hR : radInt o r mult idx = some R) (hA : ∀ p ∈ as, angInt o p.1 p.2.1 = some (A p.1 p.2.1))
    (hf : ∀ p ∈ as, p.2.2 = 1) :
    sTerm { o with selfCoupling := true } g1 g2 (.one r) mult (.many (as.map (·.1)) (as.map (·.2.1)))
        (as.map (·.2.2)) [1] idx =
    sTerm { o with selfCoupling := false } g1 g2 (.one r) mult (.many (as.map (·.1)) (as.map (·.2.1)))
        (as.map (·.2.2)) [1] idx := by
  obtain ⟨e1, e2⟩ := C50_self_coupling_values o hi g1 g2 h1 h2 r 1 as mult idx R A hR hA
  rw [e1, e2]
  congr 2
  · ring
  · congr 1; refine List.map_congr_left fun p hp => ?_; rw [hf p hp, one_mul]

/-- **C50, self-coupling, refuted.** With the angular factors `-1, 1` used by the last part of the first
term of the coefficient, the shortcut differs from the general formula for every mode whose integrals do
not vanish. -/
theorem C50_self_coupling_wrong (o : Obj) (hi : Identical o) (g1 g2 : List ℝ) (h1 : g1.length = 6) (h2 : g2.length = 6)
    (mult : List ℝ) (idx : Option ℕ) (R At Ap : ℝ)
    (hR : radInt o ("_rad_diverg", "_z_2_over_c_1_omega", "_rad_der_x_z_2_c_1_omega") mult idx = some R)
    (ht : angInt o ("hr", "ht", "ht") false = some At) (hp : angInt o ("hr", "hp", "hp") false = some Ap)
    (hR0 : R ≠ 0) (hA0 : At ≠ 0) :
    sym { o with selfCoupling := true } (fun _ => (g1, g2)) 5
        ("_rad_diverg", "_z_2_over_c_1_omega", "_rad_der_x_z_2_c_1_omega") mult
        [(("hr", "ht", "ht"), false, -1), (("hr", "hp", "hp"), false, 1)] idx ≠
    sym { o with selfCoupling := false } (fun _ => (g1, g2)) 5
        ("_rad_diverg", "_z_2_over_c_1_omega", "_rad_der_x_z_2_c_1_omega") mult
        [(("hr", "ht", "ht"), false, -1), (("hr", "hp", "hp"), false, 1)] idx := by
  obtain ⟨e1, e2⟩ := C50_self_coupling_values o hi g1 g2 h1 h2 _ 1
    [(("hr", "ht", "ht"), false, -1), (("hr", "hp", "hp"), false, 1)] mult idx R
    (fun t _ => if t = ("hr", "ht", "ht") then At else Ap) hR (by simp [ht, hp])
  unfold sym
  rw [e1, e2]
  simp only [List.map_cons, List.map_nil, if_true, List.sum_cons, List.sum_nil]
  rw [if_neg (by decide)]
  intro h
  have h := Option.some.inj h
  apply mul_ne_zero hR0 hA0
  linear_combination h / 12

/-! ### C65: the whole coefficient under relabelling -/

theorem act_const (a : String) (π : Perm (Fin 3)) : act (a, a, a) π = (a, a, a) := by
  have : Term.get (a, a, a) = fun _ => a := by funext k; fin_cases k <;> rfl
  simp [act, this, ofGet, Function.comp]

/-- All result arrays have six rows. -/
def GoodGarbage (g : Garbage) : Prop := ∀ n, (g n).1.length = 6 ∧ (g n).2.length = 6

theorem sym_relabel (σ : Perm (Fin 3)) (o o' : Obj) (h : Relabel σ o o') (hs : o.selfCoupling = false)
    (g g' : Garbage) (hg : GoodGarbage g) (hg' : GoodGarbage g') (n : ℕ) (r : Term) (mult : List ℝ)
    (angs : List (Term × Bool × ℝ)) (idx : Option ℕ) : sym o' g' n r mult angs idx = sym o g n r mult angs idx :=
  C50_relabel σ o o' h hs _ _ _ _ (hg n).1 (hg n).2 (hg' n).1 (hg' n).2 _ _ _ _ _ _
theorem sym1_relabel (σ : Perm (Fin 3)) (o o' : Obj) (h : Relabel σ o o') (hs : o.selfCoupling = false)
    (g g' : Garbage) (hg : GoodGarbage g) (hg' : GoodGarbage g') (n : ℕ) (r : Term) (mult : List ℝ)
    (ang : Term) (idx : Option ℕ) : sym1 o' g' n r mult ang idx = sym1 o g n r mult ang idx :=
  C50_relabel σ o o' h hs _ _ _ _ (hg n).1 (hg n).2 (hg' n).1 (hg' n).2 _ _ _ _ _ _

/-- **C65.** The coupling coefficient, and each of its four terms, is the same for every labelling of the
three modes; also every entry of its radial profile, and whatever the uninitialised arrays contained.
If one labelling fails then all do. -/
theorem C65_relabel (σ : Perm (Fin 3)) (o o' : Obj) (h : Relabel σ o o') (hs : o.selfCoupling = false)
    (g g' : Garbage) (hg : GoodGarbage g) (hg' : GoodGarbage g') (idx : Option ℕ) :
    coupling o' g' idx = coupling o g idx := by
  have hr : ∀ a mult, radInt o' (a, a, a) mult idx = radInt o (a, a, a) mult idx := by
    intro a mult; rw [h.radInt, act_const]
  have ha : ∀ a d, angInt o' (a, a, a) d = angInt o (a, a, a) d := by
    intro a d; rw [h.angInt, act_const]
  have hsym := sym_relabel σ o o' h hs g g' hg hg'
  have hsym1 := sym1_relabel σ o o' h hs g g' hg hg'
  have e1 : mult1 o' = mult1 o := by rw [h.rest]; rfl
  have e2 : mult2 o' = mult2 o := by rw [h.rest]; rfl
  have e3 : o'.PNormed = o.PNormed := by rw [h.rest]
  have e4 : mult4a o' = mult4a o := by rw [h.rest]; rfl
  have e5 : mult4b o' = mult4b o := by rw [h.rest]; rfl
  have e6 : o'.normP = o.normP := by rw [h.rest]
  have e7 : o'.normRho = o.normRho := by rw [h.rest]
  have e8 : o'.R = o.R := by rw [h.rest]
  unfold coupling kappa1 kappa2 kappa3 kappa4
  simp only [hr, ha, hsym, hsym1, e1, e2, e3, e4, e5, e6, e7, e8]

end
end Verif.Coupling
