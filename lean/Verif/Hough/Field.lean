import Verif.Hough.Handler
import Verif.Coupling.Value
/-!
# C172: the displacement behind the stored angular arrays

The coupling coefficient reads nine angular arrays per mode (`Coupling/Value.lean`, `Samples`) and contracts them as the
gradient of a displacement (C84).  Here: when the arrays stored by `_store_houghs` are those of such a displacement.
-/
namespace Verif.Hough
noncomputable section
open Real
open Coupling (name)

/-- Specification.  The nine arrays of mode `k` are those of a displacement with the angular profiles and the azimuthal
order of `D`, on the latitudes `mu` (the same conditions as in `Coupling.Samples`). -/
structure Spec.Angular (attr : String → Option (List ℝ)) (k : Fin 3) (mu : List ℝ) (D : Coupling.Spec.Mode) : Prop where
  hr : attr (name "_hr" (k + 1)) = some (tab mu.length D.Hr)
  ht : attr (name "_ht" (k + 1)) = some (tab mu.length D.Ht)
  hp : attr (name "_hp" (k + 1)) = some (tab mu.length D.Hp)
  dhr : attr (name "_theta_der_hr_theta" (k + 1)) = some (tab mu.length D.dHr)
  dht : attr (name "_theta_der_ht_theta" (k + 1)) = some (tab mu.length D.dHt)
  dhp : attr (name "_theta_der_hp_theta" (k + 1)) = some (tab mu.length D.dHp)
  mhr : attr (name "_mhr" (k + 1)) = some (tab mu.length fun j => D.m * D.Hr j)
  tp : attr (name "_theta_phi" (k + 1)) = some (tab mu.length fun j => D.m * D.Ht j - mu.getD j 0 * D.Hp j)
  pp : attr (name "_phi_phi" (k + 1)) =
    some (tab mu.length fun j => (mu.getD j 0 * D.Ht j - D.m * D.Hp j) / √(1 - mu.getD j 0 ^ 2))

/-- Specification.  The angular profiles of `D` are the Hough functions of `f` and their derivatives with respect to
the colatitude, on the latitudes `mu`. -/
structure Spec.IsField (c : Cfg) (f : ℝ → ℝ) (mu : List ℝ) (D : Coupling.Spec.Mode) : Prop where
  hr : ∀ j < mu.length, D.Hr j = f (mu.getD j 0)
  ht : ∀ j < mu.length, D.Ht j = thetaFn c f (mu.getD j 0)
  hp : ∀ j < mu.length, D.Hp j = phiFn c f (mu.getD j 0)
  dhr : ∀ j < mu.length, D.dHr j = deriv (fun t => f (cos t)) (arccos (mu.getD j 0))
  dht : ∀ j < mu.length, D.dHt j = deriv (fun t => thetaFn c f (cos t)) (arccos (mu.getD j 0))
  dhp : ∀ j < mu.length, D.dHp j = deriv (fun t => phiFn c f (cos t)) (arccos (mu.getD j 0))

/-! ## Proofs -/

theorem tab_eq_iff {n : ℕ} {f g : ℕ → ℝ} : tab n f = tab n g ↔ ∀ j < n, f j = g j := by
  simp [tab, List.map_inj_left]

theorem getD_lt {l : List ℝ} {j : ℕ} (hj : j < l.length) : l.getD j 0 = l[j] := by
  rw [List.getD_eq_getElem?_getD, List.getElem?_eq_getElem hj, Option.getD_some]

theorem samples_len (M : ℕ) (g : ℝ → ℝ) : (Spec.samples M g).length = M + M := List.length_ofFn

theorem samples_getD (M : ℕ) {j : ℕ} (h : j < M + M) :
    (Spec.samples M id).getD j 0 = muRange (Spec.mode M ⟨0, 0, 0⟩) ⟨j, h⟩ := by
  rw [getD_lt (by rw [samples_len]; exact h)]
  exact List.getElem_ofFn _

theorem samples_tab (M : ℕ) (g : ℝ → ℝ) : Spec.samples M g =
    tab (Spec.samples M id).length fun j => g ((Spec.samples M id).getD j 0) := by
  refine List.ext_getElem (by simp only [samples_len, tab, List.length_map, List.length_range]) fun i h1 h2 => ?_
  have h3 : i < M + M := by rwa [samples_len] at h1
  simp only [tab, List.getElem_map, List.getElem_range, samples_getD M h3]
  exact List.getElem_ofFn _

theorem mu_pos_sqrt {M : ℕ} {j : ℕ} (hj : j < (Spec.samples M id).length) :
    √(1 - (Spec.samples M id).getD j 0 ^ 2) ≠ 0 := by
  have h3 : j < M + M := by rwa [samples_len] at hj
  rw [samples_getD M h3]
  exact s_range_ne (Spec.mode M ⟨0, 0, 0⟩) ⟨j, h3⟩

variable {M : ℕ} {q : Fin 3 → Mode} {hr : Fin 3 → Fin M → ℝ} {s s' : Stored}

theorem stored_mu (h : storeHoughs M q hr s = some s') : s'.mu = Spec.samples M id := by
  obtain ⟨s1, h1, -, h2, -⟩ := C171_grid M q hr s
  rw [h] at h1
  obtain rfl := Option.some.inj h1
  exact h2

/-- The nine stored arrays as tables. -/
theorem nine (h : storeHoughs M q hr s = some s') (k : Fin 3) (f : ℝ → ℝ)
    (hf : Radial (Spec.mode M (q k)) f (hr k)) (hc : Regular (Spec.mode M (q k))) :
    let c := Spec.mode M (q k)
    let T := fun g : ℝ → ℝ => some (tab s'.mu.length fun j => g (s'.mu.getD j 0))
    s'.attr (name "_hr" (k + 1)) = T f ∧
    s'.attr (name "_ht" (k + 1)) = T (thetaFn c f) ∧
    s'.attr (name "_hp" (k + 1)) = T (phiFn c f) ∧
    s'.attr (name "_theta_der_hr_theta" (k + 1)) = T (fun x => deriv (fun t => f (cos t)) (arccos x)) ∧
    s'.attr (name "_theta_der_ht_theta" (k + 1)) = T (fun x => deriv (fun t => thetaFn c f (cos t)) (arccos x)) ∧
    s'.attr (name "_theta_der_hp_theta" (k + 1)) = T (fun x => -deriv (fun t => phiFn c f (cos t)) (arccos x)) ∧
    s'.attr (name "_mhr" (k + 1)) = T (fun x => -c.m * f x) ∧
    s'.attr (name "_theta_phi" (k + 1)) = T (fun x => c.m * thetaFn c f x - x * phiFn c f x) ∧
    s'.attr (name "_phi_phi" (k + 1)) = T (fun x => (x * thetaFn c f x - c.m * phiFn c f x) / √(1 - x ^ 2)) := by
  have hmu := stored_mu h
  have right := fun n g hg => (C171_stored_partial h k f hf hc n g hg).trans (congrArg some (samples_tab M g))
  have az := (C171_azimuthal_wrong h k f hf hc "theta_der_hp_theta" _ (List.mem_of_getElem? (i := 1) rfl)).1
  rw [samples_tab M, tab, List.map_map] at az
  rw [hmu]
  refine ⟨right "hr" _ (List.mem_of_getElem? (i := 0) rfl), right "ht" _ (List.mem_of_getElem? (i := 1) rfl),
    right "hp" _ (List.mem_of_getElem? (i := 2) rfl), right "theta_der_hr_theta" _ (List.mem_of_getElem? (i := 8) rfl),
    right "theta_der_ht_theta" _ (List.mem_of_getElem? (i := 9) rfl), az, right "mhr" _ (List.mem_of_getElem? (i := 7) rfl),
    right "theta_phi" _ (List.mem_of_getElem? (i := 5) rfl), right "phi_phi" _ (List.mem_of_getElem? (i := 6) rfl)⟩

theorem mem_mu {mu : List ℝ} {P : ℝ → Prop} : (∀ x ∈ mu, P x) ↔ ∀ j < mu.length, P (mu.getD j 0) := by
  constructor
  · intro h j hj
    rw [getD_lt hj]
    exact h _ (List.getElem_mem hj)
  · intro h x hx
    obtain ⟨j, hj, rfl⟩ := List.getElem_of_mem hx
    rw [← getD_lt hj]
    exact h j hj

/-- The three combinations fit an order `a` on the latitudes exactly when … -/
theorem order_iff {c : Cfg} {f : ℝ → ℝ} {mu : List ℝ} (hs : ∀ j < mu.length, √(1 - mu.getD j 0 ^ 2) ≠ 0) (a : ℤ) :
    ((∀ j < mu.length, -(c.m : ℝ) * f (mu.getD j 0) = a * f (mu.getD j 0)) ∧
     (∀ j < mu.length, c.m * thetaFn c f (mu.getD j 0) - mu.getD j 0 * phiFn c f (mu.getD j 0) =
        a * thetaFn c f (mu.getD j 0) - mu.getD j 0 * phiFn c f (mu.getD j 0)) ∧
     (∀ j < mu.length, (mu.getD j 0 * thetaFn c f (mu.getD j 0) - c.m * phiFn c f (mu.getD j 0)) / √(1 - mu.getD j 0 ^ 2) =
        (mu.getD j 0 * thetaFn c f (mu.getD j 0) - a * phiFn c f (mu.getD j 0)) / √(1 - mu.getD j 0 ^ 2))) ↔
    (a = -c.m ∨ ∀ x ∈ mu, f x = 0) ∧ (a = c.m ∨ ∀ x ∈ mu, thetaFn c f x = 0 ∧ phiFn c f x = 0) := by
  have z : ∀ {n k : ℤ} {v : ℝ}, (n : ℝ) * v = k * v ↔ k = n ∨ v = 0 := fun {n k v} => by
    rw [mul_eq_mul_right_iff, Int.cast_inj, eq_comm]
  have e : ∀ {p : Prop} {P : ℝ → Prop}, (p ∨ ∀ x ∈ mu, P x) ↔ ∀ j < mu.length, p ∨ P (mu.getD j 0) := fun {p P} => by
    rw [mem_mu]
    constructor
    · intro h j hj
      exact h.imp_right fun h => h j hj
    · intro h
      by_cases hp : p
      · exact Or.inl hp
      · exact Or.inr fun j hj => (h j hj).resolve_left hp
  rw [e, e]
  refine and_congr ?_ ?_
  · refine forall₂_congr fun j hj => ?_
    rw [← z, Int.cast_neg]
  · rw [← forall₂_and]
    refine forall₂_congr fun j hj => ?_
    rw [or_and_left, ← z, ← z, div_left_inj' (hs j hj), sub_left_inj, sub_right_inj]

variable (h : storeHoughs M q hr s = some s') (k : Fin 3) (f : ℝ → ℝ)
  (hf : Radial (Spec.mode M (q k)) f (hr k)) (hc : Regular (Spec.mode M (q k)))

/-- The displacement with the stored profiles, with the order `a`. -/
def stored (c : Cfg) (f : ℝ → ℝ) (mu : List ℝ) (σ : ℝ) (a : ℤ) : Coupling.Spec.Mode where
  m := a
  z := fun _ => 0
  dz := fun _ => 0
  y := fun _ => 0
  dy := fun _ => 0
  div := fun _ => 0
  Hr := fun j => f (mu.getD j 0)
  Ht := fun j => thetaFn c f (mu.getD j 0)
  Hp := fun j => phiFn c f (mu.getD j 0)
  dHr := fun j => deriv (fun t => f (cos t)) (arccos (mu.getD j 0))
  dHt := fun j => deriv (fun t => thetaFn c f (cos t)) (arccos (mu.getD j 0))
  dHp := fun j => σ * deriv (fun t => phiFn c f (cos t)) (arccos (mu.getD j 0))

include h hf hc in
theorem angular_iff (D : Coupling.Spec.Mode) : Spec.Angular s'.attr k s'.mu D ↔
    ((∀ j < s'.mu.length, D.Hr j = f (s'.mu.getD j 0)) ∧
     (∀ j < s'.mu.length, D.Ht j = thetaFn (Spec.mode M (q k)) f (s'.mu.getD j 0)) ∧
     (∀ j < s'.mu.length, D.Hp j = phiFn (Spec.mode M (q k)) f (s'.mu.getD j 0)) ∧
     (∀ j < s'.mu.length, D.dHr j = deriv (fun t => f (cos t)) (arccos (s'.mu.getD j 0))) ∧
     (∀ j < s'.mu.length, D.dHt j = deriv (fun t => thetaFn (Spec.mode M (q k)) f (cos t)) (arccos (s'.mu.getD j 0))) ∧
     (∀ j < s'.mu.length, D.dHp j = -deriv (fun t => phiFn (Spec.mode M (q k)) f (cos t)) (arccos (s'.mu.getD j 0)))) ∧
    (D.m = -(q k).m ∨ ∀ x ∈ s'.mu, f x = 0) ∧
    (D.m = (q k).m ∨ ∀ x ∈ s'.mu, thetaFn (Spec.mode M (q k)) f x = 0 ∧ phiFn (Spec.mode M (q k)) f x = 0) := by
  obtain ⟨n1, n2, n3, n4, n5, n6, n7, n8, n9⟩ := nine h k f hf hc
  have hs : ∀ j < s'.mu.length, √(1 - s'.mu.getD j 0 ^ 2) ≠ 0 := by
    rw [stored_mu h]
    exact fun j hj => mu_pos_sqrt hj
  have oi := order_iff (c := Spec.mode M (q k)) (f := f) hs D.m
  change _ ↔ (D.m = -(q k).m ∨ _) ∧ (D.m = (q k).m ∨ _) at oi
  rw [← oi]
  constructor
  · rintro ⟨a1, a2, a3, a4, a5, a6, a7, a8, a9⟩
    rw [n1, Option.some_inj, tab_eq_iff] at a1
    rw [n2, Option.some_inj, tab_eq_iff] at a2
    rw [n3, Option.some_inj, tab_eq_iff] at a3
    rw [n4, Option.some_inj, tab_eq_iff] at a4
    rw [n5, Option.some_inj, tab_eq_iff] at a5
    rw [n6, Option.some_inj, tab_eq_iff] at a6
    rw [n7, Option.some_inj, tab_eq_iff] at a7
    rw [n8, Option.some_inj, tab_eq_iff] at a8
    rw [n9, Option.some_inj, tab_eq_iff] at a9
    refine ⟨⟨fun j hj => (a1 j hj).symm, fun j hj => (a2 j hj).symm, fun j hj => (a3 j hj).symm, fun j hj => (a4 j hj).symm,
      fun j hj => (a5 j hj).symm, fun j hj => (a6 j hj).symm⟩, fun j hj => ?_, fun j hj => ?_, fun j hj => ?_⟩
    · exact (a7 j hj).trans (by rw [← a1 j hj])
    · exact (a8 j hj).trans (by rw [← a2 j hj, ← a3 j hj])
    · exact (a9 j hj).trans (by rw [← a2 j hj, ← a3 j hj])
  · rintro ⟨⟨b1, b2, b3, b4, b5, b6⟩, b7, b8, b9⟩
    constructor
    · rw [n1, Option.some_inj, tab_eq_iff]; exact fun j hj => (b1 j hj).symm
    · rw [n2, Option.some_inj, tab_eq_iff]; exact fun j hj => (b2 j hj).symm
    · rw [n3, Option.some_inj, tab_eq_iff]; exact fun j hj => (b3 j hj).symm
    · rw [n4, Option.some_inj, tab_eq_iff]; exact fun j hj => (b4 j hj).symm
    · rw [n5, Option.some_inj, tab_eq_iff]; exact fun j hj => (b5 j hj).symm
    · rw [n6, Option.some_inj, tab_eq_iff]; exact fun j hj => (b6 j hj).symm
    · rw [n7, Option.some_inj, tab_eq_iff]; intro j hj; rw [b1 j hj]; exact b7 j hj
    · rw [n8, Option.some_inj, tab_eq_iff]; intro j hj; rw [b2 j hj, b3 j hj]; exact b8 j hj
    · rw [n9, Option.some_inj, tab_eq_iff]; intro j hj; rw [b2 j hj, b3 j hj]; exact b9 j hj

theorem orders_iff {m : ℤ} {A B : Prop} : (∃ a : ℤ, (a = -m ∨ A) ∧ (a = m ∨ B)) ↔ m = 0 ∨ A ∨ B := by
  constructor
  · rintro ⟨a, h1 | h1, h2 | h2⟩
    · left; omega
    · exact Or.inr (Or.inr h2)
    · exact Or.inr (Or.inl h1)
    · exact Or.inr (Or.inl h1)
  · rintro (h | h | h)
    · exact ⟨0, Or.inl (by omega), Or.inl h.symm⟩
    · exact ⟨m, Or.inr h, Or.inl rfl⟩
    · exact ⟨-m, Or.inl rfl, Or.inr h⟩

include h hf hc in
/-- **C172 (exactly when).**  The arrays of a mode are those of a displacement whose profiles are its Hough functions
exactly when the derivative of the azimuthal function vanishes at every latitude and, in addition, the mode is
axisymmetric, or its radial function vanishes at every latitude, or both horizontal functions do. -/
theorem C172_exact : (∃ D, Spec.IsField (Spec.mode M (q k)) f s'.mu D ∧ Spec.Angular s'.attr k s'.mu D) ↔
    (∀ x ∈ s'.mu, deriv (fun t => phiFn (Spec.mode M (q k)) f (cos t)) (arccos x) = 0) ∧
    ((q k).m = 0 ∨ (∀ x ∈ s'.mu, f x = 0) ∨
      ∀ x ∈ s'.mu, thetaFn (Spec.mode M (q k)) f x = 0 ∧ phiFn (Spec.mode M (q k)) f x = 0) := by
  constructor
  · rintro ⟨D, hD, hA⟩
    obtain ⟨⟨-, -, -, -, -, h6⟩, h7⟩ := (angular_iff h k f hf hc D).1 hA
    refine ⟨mem_mu.2 fun j hj => ?_, orders_iff.1 ⟨D.m, h7⟩⟩
    have := (hD.dhp j hj).symm.trans (h6 j hj)
    linarith
  · rintro ⟨h1, h2⟩
    obtain ⟨a, ha⟩ := orders_iff.2 h2
    refine ⟨stored (Spec.mode M (q k)) f s'.mu 1 a, ⟨fun _ _ => rfl, fun _ _ => rfl, fun _ _ => rfl, fun _ _ => rfl,
      fun _ _ => rfl, fun _ _ => one_mul _⟩, (angular_iff h k f hf hc _).2 ⟨⟨fun _ _ => rfl, fun _ _ => rfl, fun _ _ => rfl,
      fun _ _ => rfl, fun _ _ => rfl, fun j hj => ?_⟩, ha⟩⟩
    have := mem_mu.1 h1 j hj
    simp only [stored, this, mul_zero, neg_zero]

include h hf hc in
/-- **C172 (the azimuthal order, exactly when).**  Whatever its profiles: the arrays of a mode are those of some
displacement of definite azimuthal order exactly when the mode is axisymmetric, or its radial function vanishes at
every latitude, or both horizontal functions do. -/
theorem C172_order_exact : (∃ D, Spec.Angular s'.attr k s'.mu D) ↔
    (q k).m = 0 ∨ (∀ x ∈ s'.mu, f x = 0) ∨
      ∀ x ∈ s'.mu, thetaFn (Spec.mode M (q k)) f x = 0 ∧ phiFn (Spec.mode M (q k)) f x = 0 := by
  constructor
  · rintro ⟨D, hA⟩
    exact orders_iff.1 ⟨D.m, ((angular_iff h k f hf hc D).1 hA).2⟩
  · intro h2
    obtain ⟨a, ha⟩ := orders_iff.2 h2
    exact ⟨stored (Spec.mode M (q k)) f s'.mu (-1) a, (angular_iff h k f hf hc _).2 ⟨⟨fun _ _ => rfl, fun _ _ => rfl, fun _ _ => rfl,
      fun _ _ => rfl, fun _ _ => rfl, fun j hj => neg_one_mul _⟩, ha⟩⟩

include h hf hc in
/-- **C172 (proved part).**  The arrays of an axisymmetric mode without rotation are those of the displacement with its
Hough functions. -/
theorem C172_axisymmetric_partial (hm : (q k).m = 0) (hnu : (q k).nu = 0) :
    ∃ D, D.m = 0 ∧ Spec.IsField (Spec.mode M (q k)) f s'.mu D ∧ Spec.Angular s'.attr k s'.mu D := by
  have hz : phiFn (Spec.mode M (q k)) f = fun _ => 0 := by
    funext x
    simp [phiFn, Spec.mode, phiPrat, hm, hnu]
  refine ⟨stored (Spec.mode M (q k)) f s'.mu 1 0, rfl, ⟨fun _ _ => rfl, fun _ _ => rfl, fun _ _ => rfl, fun _ _ => rfl,
      fun _ _ => rfl, fun _ _ => one_mul _⟩, (angular_iff h k f hf hc _).2 ⟨⟨fun _ _ => rfl, fun _ _ => rfl, fun _ _ => rfl,
      fun _ _ => rfl, fun _ _ => rfl, fun j hj => ?_⟩, Or.inl (by simp [stored, hm]), Or.inl (by simp [stored, hm])⟩⟩
  simp [stored, hz]

include h hf hc in
/-- **C172 (axisymmetric modes of a rotating star).**  The arrays are those of an axisymmetric displacement in which
everything but the derivative of the azimuthal profile is right, and that has the opposite sign. -/
theorem C172_rotating_wrong (hm : (q k).m = 0) : ∃ D, D.m = 0 ∧ Spec.Angular s'.attr k s'.mu D ∧
    Spec.IsField (Spec.mode M (q k)) f s'.mu { D with dHp := fun j => -D.dHp j } := by
  refine ⟨stored (Spec.mode M (q k)) f s'.mu (-1) 0, rfl, (angular_iff h k f hf hc _).2 ⟨⟨fun _ _ => rfl, fun _ _ => rfl, fun _ _ => rfl,
      fun _ _ => rfl, fun _ _ => rfl, fun j hj => neg_one_mul _⟩, Or.inl (by simp [stored, hm]), Or.inl (by simp [stored, hm])⟩,
      ⟨fun _ _ => rfl, fun _ _ => rfl, fun _ _ => rfl, fun _ _ => rfl, fun _ _ => rfl, fun _ _ => ?_⟩⟩
  simp [stored]

include h hf hc in
/-- **C172 refuted**: for a mode that is not axisymmetric, with a radial function and a horizontal function that do not
vanish at every latitude, no displacement of definite azimuthal order has the stored arrays. -/
theorem C172_order_wrong (hm : (q k).m ≠ 0) (x : ℝ) (hx : x ∈ s'.mu) (h0 : f x ≠ 0) (y : ℝ) (hy : y ∈ s'.mu)
    (h1 : thetaFn (Spec.mode M (q k)) f y ≠ 0 ∨ phiFn (Spec.mode M (q k)) f y ≠ 0) (D : Coupling.Spec.Mode) :
    ¬ Spec.Angular s'.attr k s'.mu D := by
  intro hA
  rcases (C172_order_exact h k f hf hc).1 ⟨D, hA⟩ with h2 | h2 | h2
  · exact hm h2
  · exact h0 (h2 x hx)
  · rcases h1 with h1 | h1
    · exact h1 (h2 y hy).1
    · exact h1 (h2 y hy).2

/-- The hypotheses of `C172_order_wrong` are met by the sectoral mode `l = m = 2` without rotation, on two latitudes. -/
example (s : Stored) (D : Coupling.Spec.Mode) : ∃ s', storeHoughs 1 (fun _ => ⟨0, 2, 2⟩) (fun _ _ => 1) s = some s' ∧
    ¬ Spec.Angular s'.attr 0 s'.mu D := by
  obtain ⟨s', h, -⟩ := C171_grid 1 (fun _ => ⟨0, 2, 2⟩) (fun _ _ => 1) s
  have hr := cex_radial .leeSaioEquivalent
  have hc := cex_regular .leeSaioEquivalent
  let j : Fin (1 + 1) := 0
  have hx : muRange (Spec.mode 1 ⟨0, 0, 0⟩) j ∈ s'.mu := by
    rw [stored_mu h]
    exact (List.mem_ofFn' _ _).2 ⟨j, rfl⟩
  refine ⟨s', h, C172_order_wrong h 0 (fun _ => 1) hr hc (by decide) _ hx one_ne_zero _ hx (Or.inr ?_) D⟩
  have e : phiFn (Spec.mode 1 ⟨0, 2, 2⟩) (fun _ => 1) = fun x => -(2 / √(1 - x ^ 2)) := by
    funext x
    rw [← cex_phi]
    rfl
  have hs := s_range_ne (Spec.mode 1 ⟨0, 0, 0⟩) j
  change phiFn (Spec.mode 1 ⟨0, 2, 2⟩) (fun _ => 1) _ ≠ 0
  rw [e]
  exact neg_ne_zero.2 (div_ne_zero two_ne_zero hs)

/-- The hypotheses of `C172_axisymmetric_partial` (`nu = 0`) and of `C172_rotating_wrong` (`nu = 1/2`) are met by the
radial function `x` of `l = 1`, `m = 0`. -/
example (nu : ℝ) (hn : nu = 0 ∨ nu = 1 / 2) : Radial (Spec.mode 1 ⟨nu, 1, 0⟩) (fun x => x) (Spec.mode 1 ⟨nu, 1, 0⟩).mu ∧
    Regular (Spec.mode 1 ⟨nu, 1, 0⟩) := by
  refine ⟨⟨Polynomial.X, fun x => ?_, ?_, ?_, rfl⟩, fun i => ?_⟩
  · simp [Spec.mode]
  · simp [Spec.mode, Polynomial.degree_X]
  · funext x
    simp [Spec.mode]
  · have h1 := abs_lt.1 (Cheby.abs_mu i)
    have h2 : (Spec.mode 1 ⟨nu, 1, 0⟩).mu i ^ 2 < 1 := by nlinarith
    have h3 : nu ^ 2 ≤ 1 := by rcases hn with rfl | rfl <;> norm_num
    change nu ^ 2 * (Spec.mode 1 ⟨nu, 1, 0⟩).mu i ^ 2 ≠ 1
    nlinarith [sq_nonneg nu, sq_nonneg ((Spec.mode 1 ⟨nu, 1, 0⟩).mu i)]

end
end Verif.Hough
