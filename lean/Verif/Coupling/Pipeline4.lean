import Verif.Coupling.Pipeline3
import Verif.Coupling.Value4
/-! # A triad that meets the hypotheses of C92 and C93 -/
namespace Verif.Coupling
noncomputable section
open Real Classical NumInt NumInt.Spec

/-- Three axisymmetric modes with constant eigenfunctions on a two-point grid. -/
def demoMode : Spec.Mode := ⟨0, 1, 1, 1, 1, 1, 1, 1, 1, 1, 1, 1⟩
/-- A star with a constant structure. -/
def demoStar : Spec.Star := ⟨fun i => i + 1, 1, 1, 1, 1, 0, 0, 0, 0⟩
def demoMu : ℕ → ℝ := fun i => -1 / 2 + (i : ℝ)
def demo : Obj := sampleObj demoStar 2 2 demoMu (fun _ => demoMode) (.tuple [true, false, false])

theorem demo_attr (b : String) (k : Fin 3) : demo.attr (name b (k + 1)) = some (arrOf 2 2 demoMu demoMode b) :=
  attrs_name (fun b _ => arrOf 2 2 demoMu demoMode b) b k

theorem demo_reg (f : List ℝ) (hf : f.length = 2) : AngInt.regular "trapz" f (tab 2 demoMu) =
    some ((f.getD 0 0 + f.getD 1 0) / 2) := by
  rw [tab_surj f 0, hf, AngInt.regular_tab "trapz" 2 le_rfl rfl]
  congr 1; simp [tab, List.range_succ, demoMu]

theorem demo_hough (b : String) (hb : b = "hr" ∨ b = "ht" ∨ b = "hp") : arrOf 2 2 demoMu demoMode ("_" ++ b) = [1, 1] := by
  rcases hb with rfl | rfl | rfl
  · show tab 2 demoMode.Hr = _
    simp [demoMode, tab, List.range_succ]
  · show tab 2 demoMode.Ht = _
    simp [demoMode, tab, List.range_succ]
  · show tab 2 demoMode.Hp = _
    simp [demoMode, tab, List.range_succ]

theorem demo_theta (k : Fin 3) (a b : String) (mm : Bool) (ha : a = "hr" ∨ a = "ht" ∨ a = "hp") (hb : b = "hr" ∨ b = "ht" ∨ b = "hp") :
    thetaNorm demo a b (k + 1) mm = .ok (if mm then 0 else 1) := by
  have hprod : AngInt.product (angObj demo) [name ("_" ++ a) (k + 1), name ("_" ++ b) (k + 1)] = some [1, 1] := by
    rw [product_two]; simp only [angObj]; rw [demo_attr, demo_attr, demo_hough a ha, demo_hough b hb]; simp [mul]
  unfold thetaNorm
  rw [AngInt.thetaIntegral, hprod]
  have e : demo.mu = tab 2 demoMu := rfl
  have h0 := demo_reg [1, 1] rfl
  have h1 := demo_reg [-1 / 2, 1 / 2] rfl
  have e2 : tab 2 demoMu = [-1 / 2, 1 / 2] := by simp [tab, List.range_succ, demoMu]; norm_num
  rw [e2] at h0 h1 e
  norm_num at h0 h1
  cases mm
  · simp [angOpts, angObj, e, show demo.useCheby = false from rfl, show demo.protect = false from rfl,
      show demo.method = "trapz" from rfl, neg_div]
    norm_num
    rw [h0]
  · simp [angOpts, angObj, e, show demo.useCheby = false from rfl, show demo.protect = false from rfl,
      show demo.method = "trapz" from rfl, AngInt.arrMul, neg_div]
    norm_num
    rw [h1]

theorem demo_rad (k : Fin 3) (b : String) (hb : b = "_x_z_1" ∨ b = "_x_z_2_over_c_1_omega") :
    radNorm demo b (k + 1) = some (5 / 2) := by
  rw [C69_radial_partial demo b (k + 1) 2 (fun _ => 1) (fun _ => 1) (fun i => i + 1) rfl rfl (by
    rw [demo_attr]; rcases hb with rfl | rfl <;> rfl)]
  congr 1; simp [trapSum]; norm_num

theorem demo_energy (k : Fin 3) (w : ℝ) (hw : 0 < w) : ∃ e, modeEnergy demo 1 w (k + 1) = some e ∧ 0 < e.2 := by
  refine ⟨_, C69_energy_doubled_wrong demo (k + 1) 1 1 1 0 (5 / 2) (5 / 2) 1 w (demo_theta k _ _ false (by simp) (by simp))
    (demo_theta k _ _ false (by simp) (by simp)) (demo_theta k _ _ false (by simp) (by simp))
    (demo_theta k _ _ true (by simp) (by simp)) (demo_rad k _ (by simp)) (demo_rad k _ (by simp)), ?_⟩
  have h1 : demo.normRho = 1 := rfl
  have h2 : demo.R = 1 := rfl
  simp only [h1, h2]
  positivity

/-- Non-vacuity of C92 and C93: for both normalisations the modes of this triad can be normalised, the
coefficient exists, and so do all objects with rescaled functions. -/
theorem demo_normed (p : HoughNorm) (g : Garbage) (hg : GoodGarbage g) :
    (∃ n, normalizeHoughs p demo = some n) ∧ (∃ r, construct ⟨1, 1, 1, fun k => k⟩ p demo = some r) ∧
    (∃ v, normedCoupling ⟨1, 1, 1, fun k => k⟩ p demo g = some v) ∧ Regular demo ∧ demo.selfCoupling = false ∧
    ∃ o', Rescaled ![2, -3, 5] ![-1, 1, 7] demo o' := by
  have hhr : ∀ k : Fin 3, demo.attr (name "_hr" (k + 1)) = some [1, 1] := fun k => by
    rw [demo_attr]; exact congrArg some (demo_hough "hr" (by simp))
  have hf : ∃ f, houghFactor p demo.mu [1, 1] = some f := by
    cases p with
    | lee2012 =>
      have h0 := demo_reg [1, 1] rfl
      norm_num at h0
      refine ⟨1 / √(2 * π), ?_⟩
      simp only [houghFactor, AngInt.leeFactor]
      rw [show demo.mu = tab 2 demoMu from rfl]
      simp only [List.map_cons, List.map_nil, one_pow, h0, Option.map_some, Option.bind_some, mul_one]
      rw [if_pos (by positivity)]
    | prat2019 => exact ⟨1, by simp [houghFactor, AngInt.pratFactor]⟩
  obtain ⟨f, hf⟩ := hf
  obtain ⟨n, hn⟩ := normalizeHoughs_total p demo (fun _ => [1, 1]) (fun _ => f)
    (fun k b _ => by rw [demo_attr]; rfl) hhr (fun _ => hf)
  obtain ⟨F, hF, hres, -⟩ := C92_normalised p demo n hn
  have hreg : Regular demo := ⟨rfl, rfl⟩
  obtain ⟨⟨o2, E, G⟩, hr⟩ := normalize_total ⟨1, 1, 1, fun k => k⟩ n (fun k b hb => by
      rw [hres.params] at hb
      rw [hres.rad b hb k, Option.isSome_map, demo_attr]; rfl) (fun k => by
      obtain ⟨e, he, hpos⟩ := demo_energy k ((k : ℕ) + 1 : ℕ) (by positivity)
      have hq := C69_quadratic hres.scaled (Or.inl hreg) 1 (((k : ℕ) + 1 : ℕ) : ℝ) k
      refine ⟨_, by rw [hq, he]; rfl, ?_⟩
      have := hF k
      simp only [one_pow, one_mul]
      positivity)
  have hc : construct ⟨1, 1, 1, fun k => k⟩ p demo = some (o2, E, G) := by
    unfold construct; rw [hn]; exact hr
  obtain ⟨-, a2, -⟩ := normalize_spec _ n o2 E G hr
  have hall := hres.trans a2
  have hcoup := coupling_computed (sampleObj_samples demoStar 2 2 demoMu (fun _ => demoMode) (.tuple [true, false, false]) le_rfl rfl
    (fun _ => rfl)) rfl rfl rfl ![true, false, false] rfl g hg none
  have h68 := C68_multilinear hall.scaled (Or.inl hreg) rfl g g hg hg none
  refine ⟨⟨n, hn⟩, ⟨_, hc⟩, ?_, hreg, rfl, ?_⟩
  · simp only [normedCoupling, Option.bind_eq_bind, hc, Option.bind_some]
    rw [h68]
    change coupling demo g none = _ at hcoup
    rw [hcoup]
    exact ⟨_, rfl⟩
  · have key : ∀ b : String, b ∈ functionalNames → "_" ++ b ∉ params demo := by decide
    let f : String → Fin 3 → List ℝ := fun b k =>
      List.map (fun v => (if b ∈ params demo then (![2, -3, 5] : Fin 3 → ℝ) k else (![-1, 1, 7] : Fin 3 → ℝ) k) * v)
        (arrOf 2 2 demoMu demoMode b)
    refine ⟨{ demo with attr := attrs f }, ?_, ?_, rfl⟩
    · intro b hb k
      rw [demo_attr]
      simp only
      rw [attrs_name]; simp only [f]; rw [if_pos hb]; rfl
    · intro b hb k
      rw [demo_attr]
      simp only
      rw [attrs_name]; simp only [f]; rw [if_neg (key b hb)]; rfl

end
end Verif.Coupling
