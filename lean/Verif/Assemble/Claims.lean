import Verif.Assemble.Lemmas
import Mathlib.Tactic.FinCases
import Mathlib.Data.Fintype.Basic
/-!
# C94 - C97: the assembly of the coefficient's input on one radial grid
-/
namespace Verif.Assemble
noncomputable section
open Classical

namespace Spec
/-- `b` is `a` without its first entry (if `cc`) and without its last entry (if `cs`). -/
def Trimmed (cc cs : Bool) (a b : List ℝ) : Prop :=
  b.length + (cc.toNat + cs.toNat) = a.length ∧ ∀ j < b.length, b.getD j 0 = a.getD (j + cc.toNat) 0

/-- The same for stored values. -/
def TrimmedVal (cc cs : Bool) : Val → Val → Prop
  | .arr a, .arr b => Trimmed cc cs a b
  | .cplx a a', .cplx b b' => Trimmed cc cs a b ∧ Trimmed cc cs a' b'
  | _, _ => False

/-- `b` are the values on the grid `xs` of the piecewise linear function through the points `(xp, a)`. -/
def Resampled (xs xp a b : List ℝ) : Prop :=
  b.length = xs.length ∧ ∀ j < xs.length, PiecewiseLinear xp a (xs.getD j 0) (b.getD j 0)

/-- The same for stored values, complex ones by parts. -/
def ResampledVal (xs xp : List ℝ) : Val → Val → Prop
  | .arr a, .arr b => Resampled xs xp a b
  | .cplx a a', .cplx b b' => Resampled xs xp a b ∧ Resampled xs xp a' b'
  | _, _ => False

/-- A dictionary read from a GYRE file with grid `x`: no key twice, the stored number of points is the length of the grid, and
there are at least four points. -/
structure File (d : Dict) (x : List ℝ) : Prop where
  keys : (d.map Prod.fst).Nodup
  grid : d.get "x" = some (.arr x)
  size : d.get "n" = some (.num x.length)
  pos : 4 ≤ x.length

/-- The structure profiles in the GYRE file are arrays on the file's grid. -/
def Profiles (names : List String) (d : Dict) (x : List ℝ) : Prop :=
  ∀ a ∈ names, ∃ v, d.get a = some (.arr v) ∧ v.length = x.length

/-- No number in the structure dictionary of a MESA model has the name of a quantity of GYRE. -/
def NoClash (add : Dict) : Prop :=
  ∀ k v, (k, Val.num v) ∈ add → k ∉ common false ∧ ∀ k' (i : Fin 3), "_" ++ k ≠ modeName k' (i + 1)

/-- The mode quantities that are used in the coupling coefficient of a MESA model. -/
def modeQuantities : List String := ["xi_r", "xi_h", "y_1", "y_2", "eul_phi", "deul_phi"]
/-- The structure arrays that are used. -/
def structureQuantities : List String := ["M_r", "rho", "P", "Gamma_1", "c_1", "V_2", "As", "U"]
end Spec

/-! ### Helpers -/

theorem slice_length (cc cs : Bool) (a : List ℝ) : (slice cc cs a).length = a.length - (cc.toNat + cs.toNat) := by
  unfold slice
  cases cc <;> cases cs <;> simp <;> omega

theorem slice_trimmed (cc cs : Bool) (a : List ℝ) (h : cc.toNat + cs.toNat ≤ a.length) : Spec.Trimmed cc cs a (slice cc cs a) := by
  refine ⟨by rw [slice_length]; omega, fun j hj => ?_⟩
  rw [slice_length] at hj
  unfold slice
  cases cc <;> cases cs <;> simp at hj ⊢
  · have h1 : j < a.length := by omega
    rw [List.getElem?_dropLast, if_pos (by omega)]
  · rw [List.getElem?_dropLast, if_pos (by simp; omega), List.getElem?_tail]

theorem two_le (cc cs : Bool) : cc.toNat + cs.toNat ≤ 2 := by cases cc <;> cases cs <;> decide

theorem npInterp_spec (xs xp a b : List ℝ) (h : npInterp xs xp a = some b) : Spec.Resampled xs xp a b := by
  unfold npInterp at h
  split at h
  · cases h
  · next hc =>
    rw [not_or] at hc
    cases h
    refine ⟨by simp, fun j hj => ?_⟩
    rw [show (xs.map (interpAt xp a)).getD j 0 = interpAt xp a (xs.getD j 0) by
      simp [List.getD_eq_getElem?_getD, List.getElem?_eq_getElem hj]]
    exact interpAt_spec _ _ _ hc.1

theorem interpVal_spec (xs xp : List ℝ) (v w : Val) (h : interpVal xs xp v = some w) : Spec.ResampledVal xs xp v w := by
  cases v with
  | num c => cases h
  | null => cases h
  | arr a =>
    obtain ⟨b, hb, rfl⟩ := Option.map_eq_some_iff.1 h
    exact npInterp_spec _ _ _ _ hb
  | cplx a a' =>
    unfold interpVal at h
    obtain ⟨b, hb, h⟩ := Option.bind_eq_some_iff.1 h
    obtain ⟨b', hb', h⟩ := Option.bind_eq_some_iff.1 h
    cases h
    exact ⟨npInterp_spec _ _ _ _ hb, npInterp_spec _ _ _ _ hb'⟩

theorem resampled_trim (cc cs : Bool) (xs xp : List ℝ) (v w : Val) (h : Spec.ResampledVal xs xp v w) (hx : 4 ≤ xs.length) :
    Spec.TrimmedVal cc cs w (w.cut (slice cc cs)) := by
  have h2 := two_le cc cs
  cases v <;> cases w <;> try exact h.elim
  · exact slice_trimmed _ _ _ (by rw [h.1]; omega)
  · exact ⟨slice_trimmed _ _ _ (by rw [h.1.1]; omega), slice_trimmed _ _ _ (by rw [h.2.1]; omega)⟩

/-- The structure dictionary changes no quantity of GYRE. -/
theorem additional_other (poly : Bool) (add : Dict) (s s' : Attrs) (h : extractAdditional poly add s = some s') (c : String)
    (hc : ∀ k, profileName k ≠ c) (hn : ∀ k v, (k, Val.num v) ∈ add → "_" ++ k ≠ c) : s' c = s c := by
  unfold extractAdditional at h
  simp only [Option.bind_eq_bind] at h
  obtain ⟨nr, -, h⟩ := Option.bind_eq_some_iff.1 h
  obtain ⟨xs, -, h⟩ := Option.bind_eq_some_iff.1 h
  split at h
  · exact sameLoop_other _ _ _ _ h c (fun k _ => hc k)
  · exact diffLoop_other _ _ _ _ _ _ h c (fun k _ _ => hc k) hn

/-- The stages of the constructor for MESA. -/
theorem mesa_stages (cc cs : Bool) (d1 d2 d3 add : Dict) (s : Attrs) (nP nρ : ℝ)
    (h : assembleMesa cc cs d1 d2 d3 add = some (s, nP, nρ)) :
    ∃ s1 s2 s3 g p ρ, interpolationModes d1 d2 d3
        (extractMode false d3 3 (extractMode false d2 2 (extractMode false d1 1 (extractCommon false d1 fun _ => none)))) = some s1 ∧
      extractAdditional false add s1 = some s2 ∧ s2 "_P" = some p ∧ s2 "_rho" = some ρ ∧ normFactor cc cs p = some nP ∧
      normFactor cc cs ρ = some nρ ∧ cuts cc cs preCuts (set s2 "_G" g) = some s3 ∧ sameLength s3 "_M_r" "_x" = some () ∧
      cuts cc cs (mesaCuts ++ structureCuts) s3 = some s := by
  unfold assembleMesa at h
  simp only [Option.bind_eq_bind] at h
  obtain ⟨s1, h1, h⟩ := Option.bind_eq_some_iff.1 h
  obtain ⟨s2, h2, h⟩ := Option.bind_eq_some_iff.1 h
  obtain ⟨p, h3, h⟩ := Option.bind_eq_some_iff.1 h
  obtain ⟨ρ, h4, h⟩ := Option.bind_eq_some_iff.1 h
  obtain ⟨nP', h5, h⟩ := Option.bind_eq_some_iff.1 h
  obtain ⟨nρ', h6, h⟩ := Option.bind_eq_some_iff.1 h
  obtain ⟨g, h7, h⟩ := Option.bind_eq_some_iff.1 h
  obtain ⟨s3, h8, h⟩ := Option.bind_eq_some_iff.1 h
  obtain ⟨⟨⟩, h9, h⟩ := Option.bind_eq_some_iff.1 h
  obtain ⟨s4, h10, h⟩ := Option.bind_eq_some_iff.1 h
  cases h
  rw [modeCuts_eq] at h10
  exact ⟨s1, s2, s3, g, p, ρ, h1, h2, h3, h4, h5, h6, h8, h9, h10⟩

/-- Names of common quantities have no suffix of a structure profile. -/
theorem common_not_profile (poly : Bool) (a : String) (ha : a ∈ common poly) (k : String) : profileName k ≠ "_" ++ a :=
  profileName_ne _ _ ((by decide : ∀ poly : Bool, ∀ a ∈ common poly, ¬ "_profile".toList <:+ ("_" ++ a).toList) poly a ha)

/-- Names of common quantities have no suffix of a mode. -/
theorem common_not_mode (poly : Bool) (a : String) (ha : a ∈ common poly) (k : String) (i : Fin 3) : modeName k (i + 1) ≠ "_" ++ a :=
  modeName_ne _ _ _ ((by decide : ∀ poly : Bool, ∀ a ∈ common poly, ∀ i : Fin 3,
    ¬ ("_mode_" ++ toString ((i : ℕ) + 1)).toList <:+ ("_" ++ a).toList) poly a ha)

/-- Common quantities are those of the first file before the structure file is read. -/
theorem common_before (poly : Bool) (d1 d2 d3 : Dict) (s1 : Attrs) (hk : ∀ i, ((pick d1 d2 d3 i).map Prod.fst).Nodup)
    (h1 : interpolationModes d1 d2 d3 (extractMode poly d3 3 (extractMode poly d2 2 (extractMode poly d1 1
      (extractCommon poly d1 fun _ => none)))) = some s1) (a : String) (ha : a ∈ common poly) (hx : a ≠ "x") :
    s1 ("_" ++ a) = some ((d1.get a).getD .null) := by
  have hm := common_not_mode poly a ha
  obtain ⟨-, -, -, -, -, -, -, -, -, -, hoth⟩ := interpolation_spec _ _ _ _ _ h1 hk
  rw [hoth _ hm (fun e => hx (under_inj a "x" e)), extractMode_other _ _ 3 _ _ (fun k => hm k 2),
    extractMode_other _ _ 2 _ _ (fun k => hm k 1), extractMode_other _ _ 1 _ _ (fun k => hm k 0), extractCommon_get _ _ _ _ ha]

/-- Common quantities are kept until the cuts. -/
theorem common_kept (d1 d2 d3 add : Dict) (s1 s2 : Attrs) (hk : ∀ i, ((pick d1 d2 d3 i).map Prod.fst).Nodup)
    (h1 : interpolationModes d1 d2 d3 (extractMode false d3 3 (extractMode false d2 2 (extractMode false d1 1
      (extractCommon false d1 fun _ => none)))) = some s1)
    (h2 : extractAdditional false add s1 = some s2) (hn : Spec.NoClash add) (a : String) (ha : a ∈ common false) (hx : a ≠ "x") :
    s2 ("_" ++ a) = some ((d1.get a).getD .null) := by
  rw [additional_other _ _ _ _ h2 _ (common_not_profile false a ha)
    (fun k v hv e => (hn k v hv).1 (by rw [under_inj _ _ e]; exact ha))]
  exact common_before false d1 d2 d3 s1 hk h1 a ha hx

/-- What the two groups of cuts do. -/
theorem cut_all (cc cs : Bool) (s2 s3 s : Attrs) (g : Val) (h3 : cuts cc cs preCuts (set s2 "_G" g) = some s3)
    (h : cuts cc cs (mesaCuts ++ structureCuts) s3 = some s) :
    (∀ c ∈ preCuts ++ mesaCuts ++ structureCuts, s c = (s2 c).map (Val.cut (slice cc cs))) ∧
    (∀ c ∈ preCuts, s3 c = (s2 c).map (Val.cut (slice cc cs))) ∧
    ∀ c, c ∉ preCuts ++ mesaCuts ++ structureCuts → c ≠ "_G" → s c = s2 c := by
  obtain ⟨a1, a2⟩ := cuts_spec _ _ _ _ _ h3 (by decide)
  obtain ⟨b1, b2⟩ := cuts_spec _ _ _ _ _ h (by decide)
  have hG : ∀ c ∈ preCuts ++ mesaCuts ++ structureCuts, c ≠ "_G" := by decide
  have hdis : ∀ c ∈ preCuts, c ∉ mesaCuts ++ structureCuts := by decide
  have pre : ∀ c ∈ preCuts, s3 c = (s2 c).map (Val.cut (slice cc cs)) := by
    intro c hc
    rw [a1 c hc, set_ne _ _ _ _ (hG c (by simp [hc]))]
  refine ⟨fun c hc => ?_, pre, fun c hc hg => ?_⟩
  · by_cases hp : c ∈ preCuts
    · rw [b2 c (hdis c hp), pre c hp]
    · have hm : c ∈ mesaCuts ++ structureCuts := by
        rw [List.append_assoc, List.mem_append] at hc; exact hc.resolve_left hp
      rw [b1 c hm, a2 c hp, set_ne _ _ _ _ (hG c hc)]
  · rw [List.append_assoc, List.mem_append, not_or] at hc
    rw [b2 c hc.2, a2 c hc.1, set_ne _ _ _ _ hg]

theorem file_grid {d : Dict} {x : List ℝ} (h : Spec.File d x) : gridOf d = some x := by unfold gridOf; rw [h.grid]
theorem file_size {d : Dict} {x : List ℝ} (h : Spec.File d x) : sizeOf d = some (x.length : ℝ) := by unfold sizeOf; rw [h.size]

/-- The longest grid, for files. -/
theorem longest_grid (d1 d2 d3 : Dict) (x1 x2 x3 : List ℝ) (f1 : Spec.File d1 x1) (f2 : Spec.File d2 x2) (f3 : Spec.File d3 x3) :
    ∃ xs, gridOf (longest x1.length x2.length x3.length d1 d2 d3) = some xs ∧ x1.length ≤ xs.length ∧ x2.length ≤ xs.length ∧
      x3.length ≤ xs.length ∧ (xs.length = x1.length → xs = x1) := by
  unfold longest
  split
  · next h =>
    simp only [Nat.cast_le] at h
    exact ⟨x1, file_grid f1, le_rfl, h.1, h.2, fun _ => rfl⟩
  · next h =>
    simp only [Nat.cast_le] at h
    split
    · next h' =>
      rw [Nat.cast_le] at h'
      refine ⟨x2, file_grid f2, by omega, le_rfl, h', fun e => by omega⟩
    · next h' =>
      rw [Nat.cast_le] at h'
      refine ⟨x3, file_grid f3, by omega, by omega, le_rfl, fun e => by omega⟩

theorem pick_files {d1 d2 d3 : Dict} {x1 x2 x3 : List ℝ} (f1 : Spec.File d1 x1) (f2 : Spec.File d2 x2) (f3 : Spec.File d3 x3) :
    ∀ i, ((pick d1 d2 d3 i).map Prod.fst).Nodup := by
  intro i; fin_cases i
  · exact f1.keys
  · exact f2.keys
  · exact f3.keys

/-- **C94.** If the constructor finishes for a MESA model, the first mode has the finest grid, and that grid without the cut
ends is the radial coordinate; each quantity of each mode is the piecewise linear function through that mode's own points,
taken on that grid and cut in the same way; and the structure arrays are those of the first file, cut in the same way. -/
theorem C94_one_grid_partial (cc cs : Bool) (d1 d2 d3 add : Dict) (x1 x2 x3 : List ℝ) (s : Attrs) (nP nρ : ℝ)
    (f1 : Spec.File d1 x1) (f2 : Spec.File d2 x2) (f3 : Spec.File d3 x3) (hp : Spec.Profiles Spec.structureQuantities d1 x1)
    (hn : Spec.NoClash add) (h : assembleMesa cc cs d1 d2 d3 add = some (s, nP, nρ)) :
    x2.length ≤ x1.length ∧ x3.length ≤ x1.length ∧ (∃ x, s "_x" = some (.arr x) ∧ Spec.Trimmed cc cs x1 x) ∧
    (∀ (i : Fin 3), ∀ k ∈ Spec.modeQuantities, ∀ v, ((![d1, d2, d3] : Fin 3 → Dict) i).get k = some v →
      ∃ w t, Spec.ResampledVal x1 ((![x1, x2, x3] : Fin 3 → List ℝ) i) v w ∧ Spec.TrimmedVal cc cs w t ∧
        s ("_" ++ k ++ "_mode_" ++ toString ((i : ℕ) + 1)) = some t) ∧
    ∀ a ∈ Spec.structureQuantities, ∀ v, d1.get a = some v → ∃ t, Spec.TrimmedVal cc cs v t ∧ s ("_" ++ a) = some t := by
  obtain ⟨s1, s2, s3, g, p, ρ, h1, h2, h3, h4, h5, h6, h7, h8, h9⟩ := mesa_stages _ _ _ _ _ _ _ _ _ h
  have hk := pick_files f1 f2 f3
  obtain ⟨m1, m2, m3, xs, e1, e2, e3, ex, hx, hget, hoth⟩ := interpolation_spec _ _ _ _ _ h1 hk
  rw [file_size f1] at e1; rw [file_size f2] at e2; rw [file_size f3] at e3
  cases e1; cases e2; cases e3
  obtain ⟨xs', ex', l1, l2, l3, luniq⟩ := longest_grid d1 d2 d3 x1 x2 x3 f1 f2 f3
  rw [ex] at ex'; cases ex'
  obtain ⟨c1, c2, c3⟩ := cut_all _ _ _ _ _ _ h7 h9
  have hx2 : s2 "_x" = some (.arr xs) := by
    rw [additional_other _ _ _ _ h2 "_x" (fun k => profileName_ne k _ (by decide))
      (fun k v hv e => (hn k v hv).1 (by rw [under_inj k "x" e]; decide)), hx]
  have hcom : ∀ a ∈ Spec.structureQuantities, s2 ("_" ++ a) = some ((d1.get a).getD .null) := by
    intro a ha
    refine common_kept d1 d2 d3 add s1 s2 hk h1 h2 hn a ?_ ?_
    · revert a; decide
    · revert a; decide
  obtain ⟨vM, hM, lM⟩ := hp "M_r" (by decide)
  have hlen : xs = x1 := by
    apply luniq
    have hM2 := hcom "M_r" (by decide)
    rw [hM] at hM2
    have hM3 : s3 "_M_r" = some (.arr (slice cc cs vM)) := by
      rw [c2 "_M_r" (by decide), show ("_M_r" : String) = "_" ++ "M_r" from rfl, hM2]; rfl
    have hx3 : s3 "_x" = some (.arr (slice cc cs xs)) := by rw [c2 "_x" (by decide), hx2]; rfl
    unfold sameLength arrOf at h8
    rw [hM3, hx3] at h8
    simp only [Option.bind_eq_bind, Option.bind_some, slice_length] at h8
    have h2' := two_le cc cs
    have := f1.pos
    split at h8
    · next hc => omega
    · cases h8
  subst hlen
  refine ⟨l2, l3, ⟨slice cc cs xs, ?_, slice_trimmed _ _ _ (le_trans (two_le _ _) (by have := f1.pos; omega))⟩, ?_, ?_⟩
  · rw [c1 "_x" (by decide), hx2]; rfl
  · intro i k hkm v hv
    have hki : k ∈ interpList := (by decide : ∀ k ∈ Spec.modeQuantities, k ∈ interpList) k hkm
    obtain ⟨xp, w, b1, b2, b3⟩ := hget i k v hv hki
    have hxp : xp = (![xs, x2, x3] : Fin 3 → List ℝ) i := by
      fin_cases i
      · exact Option.some.inj (b1.symm.trans (file_grid f1))
      · exact Option.some.inj (b1.symm.trans (file_grid f2))
      · exact Option.some.inj (b1.symm.trans (file_grid f3))
    subst hxp
    refine ⟨w, w.cut (slice cc cs), interpVal_spec _ _ _ _ b2, resampled_trim _ _ _ _ _ _ (interpVal_spec _ _ _ _ b2) f1.pos, ?_⟩
    have hmem : ∀ k ∈ Spec.modeQuantities, ∀ i : Fin 3, modeName k (i + 1) ∈ preCuts ++ mesaCuts ++ structureCuts := by decide
    change s (modeName k (i + 1)) = _
    rw [c1 _ (hmem k hkm i), additional_other _ _ _ _ h2 _ (fun k' => (mode_profile_ne k k' i).symm)
      (fun k' v' hv' e => (hn k' v' hv').2 k i e), b3]
    rfl
  · intro a ha v hv
    obtain ⟨w, hw, lw⟩ := hp a ha
    rw [hv] at hw
    cases hw
    refine ⟨.arr (slice cc cs w), slice_trimmed _ _ _ (le_trans (two_le _ _) (by rw [lw]; have := f1.pos; omega)), ?_⟩
    have hmem : ∀ k ∈ Spec.structureQuantities, "_" ++ k ∈ preCuts ++ mesaCuts ++ structureCuts := by decide
    rw [c1 _ (hmem a ha), hcom a ha, hv]
    rfl

/-- **C94, refutation of the full claim.** The modes may not be given in any order: when the first file is not the finest of the
three, the constructor fails for every input. -/
theorem C94_coarse_first_wrong (cc cs : Bool) (d1 d2 d3 add : Dict) (x1 x2 x3 : List ℝ)
    (f1 : Spec.File d1 x1) (f2 : Spec.File d2 x2) (f3 : Spec.File d3 x3) (hp : Spec.Profiles Spec.structureQuantities d1 x1)
    (hn : Spec.NoClash add) (hc : x1.length < x2.length ∨ x1.length < x3.length) :
    assembleMesa cc cs d1 d2 d3 add = none := by
  rcases h : assembleMesa cc cs d1 d2 d3 add with _ | ⟨s, nP, nρ⟩
  · rfl
  · have := C94_one_grid_partial cc cs d1 d2 d3 add x1 x2 x3 s nP nρ f1 f2 f3 hp hn h
    omega

/-- **C94.** A quantity that is already on the grid is not changed. -/
theorem C94_own_grid (x : List ℝ) (v w : Val) (hx : Spec.Increasing x) (h : Spec.ResampledVal x x v w) (hv : match v with
      | .arr a => a.length = x.length
      | .cplx a b => a.length = x.length ∧ b.length = x.length
      | _ => True) : w = v := by
  have key : ∀ a b : List ℝ, a.length = x.length → Spec.Resampled x x a b → b = a := by
    intro a b ha hr
    apply List.ext_getElem (by rw [hr.1, ha])
    intro i hi hi'
    have hix : i < x.length := by omega
    have := piecewise_unique x a _ _ _ hx (hr.2 i hix) (piecewise_knot x a i hix hx)
    simpa [List.getD_eq_getElem?_getD, List.getElem?_eq_getElem hi, List.getElem?_eq_getElem hi'] using this
  cases v <;> cases w <;> try exact h.elim
  · rw [key _ _ hv h]
  · rw [key _ _ hv.1 h.1, key _ _ hv.2 h.2]

/-- **C94.** A quantity that is an affine function of the radius is carried over exactly, wherever the target grid lies inside the
mode's own. -/
theorem C94_affine (xs xp b : List ℝ) (m q : ℝ) (hx : Spec.Increasing xp) (hne : xp ≠ [])
    (hin : ∀ t ∈ xs, xp.getD 0 0 ≤ t ∧ t ≤ xp.getD (xp.length - 1) 0)
    (h : Spec.Resampled xs xp (xp.map fun v => m * v + q) b) : b = xs.map fun v => m * v + q := by
  apply List.ext_getElem (by rw [h.1]; simp)
  intro i hi hi'
  have hix : i < xs.length := by rw [h.1] at hi; exact hi
  have e := h.2 i hix
  have hg : xs.getD i 0 = xs[i] := by simp [List.getD_eq_getElem?_getD, List.getElem?_eq_getElem hix]
  have hm : xs[i] ∈ xs := List.getElem_mem hix
  have := piecewise_unique _ _ _ _ _ hx e (interpAt_spec xp _ (xs.getD i 0) hne)
  rw [hg, interpAt_affine xp m q _ hx hne (hin _ hm).1 (hin _ hm).2] at this
  simpa [List.getD_eq_getElem?_getD, List.getElem?_eq_getElem hi] using this

/-! ### C97: normalisation -/

theorem maxOf_spec (a : List ℝ) (m : ℝ) (h : maxOf a = some m) : m ∈ a ∧ ∀ v ∈ a, v ≤ m := by
  cases a with
  | nil => cases h
  | cons b l =>
    cases h
    have key : ∀ (l : List ℝ) (b : ℝ), (l.foldl max b = b ∨ l.foldl max b ∈ l) ∧ b ≤ l.foldl max b ∧ ∀ v ∈ l, v ≤ l.foldl max b := by
      intro l
      induction l with
      | nil => intro b; simp
      | cons c l ih =>
        intro b
        obtain ⟨i1, i2, i3⟩ := ih (max b c)
        rw [List.foldl_cons]
        refine ⟨?_, le_trans (le_max_left _ _) i2, fun v hv => ?_⟩
        · rcases i1 with e | e
          · rcases max_choice b c with e' | e'
            · left; rw [e, e']
            · right; rw [e, e']; simp
          · right; exact List.mem_cons_of_mem _ e
        · rcases List.mem_cons.1 hv with rfl | hv
          · exact le_trans (le_max_right _ _) i2
          · exact i3 v hv
    obtain ⟨i1, i2, i3⟩ := key l b
    refine ⟨?_, fun v hv => ?_⟩
    · rcases i1 with e | e
      · rw [e]; simp
      · exact List.mem_cons_of_mem _ e
    · rcases List.mem_cons.1 hv with rfl | hv
      · exact i2
      · exact i3 v hv

/-- **C97.** The pressure and density scales of a MESA model are the largest values of the arrays that the object holds after
the cuts, so that the normalised profiles do not exceed one. -/
theorem C97_scales (cc cs : Bool) (d1 d2 d3 add : Dict) (x1 x2 x3 : List ℝ) (s : Attrs) (nP nρ : ℝ)
    (f1 : Spec.File d1 x1) (f2 : Spec.File d2 x2) (f3 : Spec.File d3 x3) (hp : Spec.Profiles Spec.structureQuantities d1 x1)
    (hn : Spec.NoClash add) (h : assembleMesa cc cs d1 d2 d3 add = some (s, nP, nρ)) :
    ∃ P ρ, s "_P" = some (.arr P) ∧ s "_rho" = some (.arr ρ) ∧ IsGreatest {v | v ∈ P} nP ∧ IsGreatest {v | v ∈ ρ} nρ := by
  obtain ⟨s1, s2, s3, g, p, ρ, h1, h2, h3, h4, h5, h6, h7, h8, h9⟩ := mesa_stages _ _ _ _ _ _ _ _ _ h
  have hk := pick_files f1 f2 f3
  obtain ⟨c1, c2, c3⟩ := cut_all _ _ _ _ _ _ h7 h9
  obtain ⟨vP, hP, -⟩ := hp "P" (by decide)
  obtain ⟨vρ, hρ, -⟩ := hp "rho" (by decide)
  have e1 : s2 "_P" = some (.arr vP) := by
    have := common_kept d1 d2 d3 add s1 s2 hk h1 h2 hn "P" (by decide) (by decide)
    rw [hP] at this; exact this
  have e2 : s2 "_rho" = some (.arr vρ) := by
    have := common_kept d1 d2 d3 add s1 s2 hk h1 h2 hn "rho" (by decide) (by decide)
    rw [hρ] at this; exact this
  rw [e1] at h3; rw [e2] at h4
  cases h3; cases h4
  refine ⟨slice cc cs vP, slice cc cs vρ, ?_, ?_, ?_, ?_⟩
  · rw [c1 "_P" (by decide), e1]; rfl
  · rw [c1 "_rho" (by decide), e2]; rfl
  · exact ⟨(maxOf_spec _ _ h5).1, fun v hv => (maxOf_spec _ _ h5).2 v hv⟩
  · exact ⟨(maxOf_spec _ _ h6).1, fun v hv => (maxOf_spec _ _ h6).2 v hv⟩

end
end Verif.Assemble
