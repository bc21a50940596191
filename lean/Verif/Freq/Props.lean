import Verif.Freq.Spec
import Verif.CommonLemmas
import Mathlib.Tactic.Ring
import Mathlib.Tactic.FieldSimp
import Mathlib.Tactic.NormNum
import Mathlib.Tactic.Linarith
import Mathlib.Tactic.LinearCombination
import Mathlib.Tactic.Positivity
/-! # C29, C30, C31 -/
namespace Verif.Freq
open Real

/-! ## C30 -/

/-- The requested unit with the same meaning as a stored table unit. -/
def SameUnit : Req → Stored → Prop
  | .hz, .hz => True
  | .uhz, .uhz => True
  | .cycPerDay, .cycPerDay => True
  | .cpd, .cycPerDay => True
  | .radPerSec, .radPerSec => True
  | _, _ => False

/-- **C30**: for all values (real or complex), converting a quantity stored in unit `u` to unit `v` and
then onwards from `v` to `w` is the same as converting it from `u` to `w` directly. -/
theorem C30_through_intermediate {K : Type} [Field K] [CharZero K] (pi : K) (hpi : pi ≠ 0)
    (u v : Stored) (rv rw : Req) (h : SameUnit rv v) (f : K → K) (hf : table pi rv u = some f) :
    ∃ g k, table pi rw v = some g ∧ table pi rw u = some k ∧ ∀ x, g (f x) = k x := by
  have h10 : (1000000 : K) ≠ 0 := by norm_num
  have h86 : (86400 : K) ≠ 0 := by norm_num
  cases rv <;> cases v <;> simp only [SameUnit] at h <;> cases u <;>
    simp only [table, Option.some.injEq, reduceCtorEq] at hf <;> subst hf <;> cases rw <;>
    refine ⟨_, _, rfl, rfl, fun x => ?_⟩ <;> first | rfl | (field_simp)

/-- **C30**: converting there and back is the identity. -/
theorem C30_round_trip_partial {K : Type} [Field K] [CharZero K] (pi : K) (hpi : pi ≠ 0)
    (u v : Stored) (ru rv : Req) (hu : SameUnit ru u) (hv : SameUnit rv v) :
    ∃ f g, table pi rv u = some f ∧ table pi ru v = some g ∧ (∀ x, g (f x) = x) ∧ ∀ x, f (g x) = x := by
  have h10 : (1000000 : K) ≠ 0 := by norm_num
  have h86 : (86400 : K) ≠ 0 := by norm_num
  cases ru <;> cases u <;> simp only [SameUnit] at hu <;> cases rv <;> cases v <;>
    simp only [SameUnit] at hv <;>
    refine ⟨_, _, rfl, rfl, fun x => ?_, fun x => ?_⟩ <;> first | rfl | (field_simp)

/-- **C30**: each table entry multiplies by the ratio of the two units. -/
theorem C30_physical (st : Star) (r : Req) (s : Stored) (f : ℝ → ℝ) (hf : table π r s = some f) (x : ℝ) :
    ∃ a, radPerUnit st s = some a ∧
      f x = x * a / (match r with
        | .hz => 2 * π | .uhz => 2 * π / 1000000 | .cycPerDay => 2 * π / 86400
        | .cpd => 2 * π / 86400 | .radPerSec => 1) := by
  have hpi : π ≠ 0 := Real.pi_ne_zero
  cases r <;> cases s <;> simp only [table, Option.some.injEq, reduceCtorEq] at hf <;> subst hf <;>
    refine ⟨_, rfl, ?_⟩ <;> simp only [] <;> field_simp

/-- The hypotheses of `C30_through_intermediate` are met: μHz to cycles per day to rad/s. -/
example : SameUnit .cpd .cycPerDay ∧
    table (π : ℝ) .cpd .uhz = some (fun v => v * (1 / 1000000) * 86400) := ⟨trivial, rfl⟩

/-- The converter for objects agrees with the table for μHz, rad/s and cycles per day, raises for Hz, and
for dimensionless frequencies is in rad/s, i.e. 2π times the documented Hz. -/
theorem C30_object_converter_wrong (G M R x : ℝ) :
    (∀ s f, factorFromObject G M R s = some f → (∀ n, s ≠ .other n) → table π .hz s = some f ∨
      (s = .uhz ∧ f x = x * (1 / 1000000))) ∧
    factorFromObject G M R .hz = none ∧
    ∃ f g, factorFromObject G M R (.other "NONE") = some f ∧
      factorFromDict ⟨x, 0, true, .other "NONE", none, 0, G, M, R⟩ .hz true = some g ∧
      ((f x : ℝ) : ℂ) = 2 * π * g x := by
  refine ⟨?_, rfl, _, _, rfl, rfl, ?_⟩
  · intro s f hf hs
    cases s with
    | other n => exact absurd rfl (hs n)
    | hz => simp [factorFromObject] at hf
    | uhz =>
      simp only [factorFromObject, Option.some.injEq] at hf; subst hf
      right; exact ⟨rfl, by ring⟩
    | radPerSec => left; simpa [factorFromObject, table] using hf
    | cycPerDay => left; simpa [factorFromObject, table] using hf
  · have hpi : (π : ℂ) ≠ 0 := by exact_mod_cast Real.pi_ne_zero
    push_cast
    field_simp

/-! ## C29 -/

theorem scale_pos (r : Req) : 0 < scale r := by cases r <;> norm_num [scale]

/-- The rotation frequency in requested units. -/
theorem rotFreq_eq (r : Req) (st : Star) (md : ModeDict) (p : Phys) (h : Describes st md p) :
    rpsRot md = st.Ω ∧
    rotFreq r md = some (if isAngular r then st.Ω else scale r * st.Ω / (2 * π)) := by
  obtain ⟨-, hG, hM, hR, -, hrot⟩ := h
  have hr : rpsRot md = st.Ω := by
    unfold rpsRot
    rcases hrot with h | ⟨h1, h2⟩
    · rw [h]
    · rw [h1, hG, hM, hR]; exact h2
  refine ⟨hr, ?_⟩
  unfold rotFreq
  rw [hr]
  cases r <;> simp [table, isAngular, scale] <;> ring

/-- The conversion function of a described mode, in rad/s times scale (angular) or cycles. -/
theorem factor_eq (r : Req) (st : Star) (md : ModeDict) (p : Phys) (h : Describes st md p) :
    ∃ f, factorFromDict md r true = some f ∧
      f md.freq = (if md.inertial then p.w + ((p.m * st.Ω : ℝ) : ℂ) else p.w) *
        ((if isAngular r then 1 else scale r / (2 * π) : ℝ) : ℂ) := by
  obtain ⟨-, hG, hM, hR, ⟨u, hu, hw⟩, -⟩ := h
  rw [← hw]
  have hpi : (π : ℂ) ≠ 0 := by exact_mod_cast Real.pi_ne_zero
  unfold factorFromDict
  cases hs : md.units with
  | other n =>
    rw [hs] at hu
    simp only [radPerUnit] at hu
    split at hu
    · simp only [Option.some.injEq] at hu
      subst hu
      cases r <;> refine ⟨_, rfl, ?_⟩ <;> rw [hG, hM, hR] <;> simp [isAngular, scale] <;> field_simp
    · simp at hu
  | _ =>
    rw [hs] at hu
    simp only [radPerUnit, Option.some.injEq] at hu
    subst hu
    cases r <;> refine ⟨_, rfl, ?_⟩ <;> simp [isAngular, scale] <;> field_simp

/-- What the adiabatic pass computes for a described mode. -/
theorem adMode_eq (r : Req) (st : Star) (md : ModeDict) (p : Phys) (h : Describes st md p)
    (garbage : ℝ) (f : ℂ → ℂ) (hf : factorFromDict md r true = some f) :
    let o := adMode r (if isAngular r then st.Ω else scale r * st.Ω / (2 * π)) garbage f md
    o.corotO = scale r * p.w.re ∧ o.inertO = scale r * p.inert st ∧
    o.inertF = scale r * p.inert st / (2 * π) ∧
    (r ≠ .radPerSec ∨ md.inertial = false → o.corotF = scale r * p.w.re / (2 * π)) ∧
    (r = .radPerSec ∧ md.inertial = true → o.corotF = garbage / (2 * π)) := by
  obtain ⟨f', hf', hv⟩ := factor_eq r st md p h
  rw [hf] at hf'
  obtain rfl := Option.some.inj hf'
  have hm := h.1
  have hpi : π ≠ 0 := Real.pi_ne_zero
  have hre : (f md.freq).re = (if md.inertial then p.w.re + p.m * st.Ω else p.w.re) *
      (if isAngular r then 1 else scale r / (2 * π)) := by
    rw [hv, Complex.re_mul_ofReal]
    congr 1
    split
    · rw [Complex.add_re, Complex.ofReal_re]
    · rfl
  intro o
  have ho : o = adMode r (if isAngular r then st.Ω else scale r * st.Ω / (2 * π)) garbage f md := rfl
  rw [ho]
  unfold adMode ocfr fcfr
  simp only [hre, hm, Phys.inert]
  cases hi : md.inertial
  · by_cases hr : r = .radPerSec
    · subst hr
      simp [isAngular, scale]
      ring_nf
    · have ha : isAngular r = false := by cases r <;> simp_all [isAngular]
      simp only [ha, Bool.false_eq_true, if_false]
      refine ⟨?_, ?_, ?_, fun _ => ?_, ?_⟩
      · field_simp
      · field_simp
      · field_simp
      · field_simp
      · intro h; exact absurd h.1 hr
  · by_cases hr : r = .radPerSec
    · subst hr
      simp [isAngular, scale]
      ring
    · have ha : isAngular r = false := by cases r <;> simp_all [isAngular]
      simp only [ha, Bool.false_eq_true, if_false, if_true]
      refine ⟨?_, ?_, ?_, fun _ => ?_, ?_⟩
      · field_simp; ring
      · field_simp
      · field_simp
      · field_simp; ring
      · intro h; exact absurd h.1 hr

/-- The conversion function of a dictionary (it always exists when missing units are tolerated). -/
noncomputable def conv (r : Req) (md : ModeDict) : ℂ → ℂ := (factorFromDict md r true).getD id

theorem conv_eq (r : Req) (md : ModeDict) : factorFromDict md r true = some (conv r md) := by
  unfold conv factorFromDict
  cases md.units <;> cases r <;> rfl

theorem mapM_conv (r : Req) (mds : List ModeDict) :
    mds.mapM (fun md => factorFromDict md r true) = some (mds.map (conv r)) :=
  mapM_total _ _ _ (fun md _ => conv_eq r md)

/-- The requested-unit rotation frequency. -/
noncomputable def rotOf (r : Req) (st : Star) : ℝ :=
  if isAngular r then st.Ω else scale r * st.Ω / (2 * π)

theorem dimFactor_eq (r : Req) (st : Star) (md : ModeDict) (p : Phys) (h : Describes st md p) :
    dimFactor r md = some (scale r * √(st.R ^ 3 / (st.G * st.M))) := by
  obtain ⟨-, hG, hM, hR, -⟩ := h
  have hpi : π ≠ 0 := Real.pi_ne_zero
  unfold dimFactor dimConv
  rw [hG, hM, hR]
  cases r <;> simp [table, isAngular, scale] <;> field_simp

theorem getElem_forall2 {α β : Type} {R : α → β → Prop} {a : List α} {b : List β}
    (h : List.Forall₂ R a b) (i : Nat) (h1 : i < a.length) (h2 : i < b.length) : R a[i] b[i] := by
  have := h.get h1 h2
  simpa using this

/-- **C29** (adiabatic; partial).  Take any star and any list of physical modes, described by dictionaries
that may store the frequencies in any supported units and in either frame (even mixed).  In whatever
requested units, and whatever was in the uninitialised array, the handler's co-rotating and inertial
angular frequencies, inertial cyclic frequencies, dimensionless frequencies, spin parameters, rotation rate
and detuning are the functions of the *physical* frequencies given here, so they do not depend on how the
modes were stored.  Missing: the co-rotating cyclic frequency is correct only if angular units were not
requested or no frequency was stored in the inertial frame (`C29_corot_freq_wrong`). -/
theorem C29_adiabatic_partial (st : Star) (ps : List Phys) (mds : List ModeDict) (r : Req)
    (garbage : Nat → ℝ) (h : List.Forall₂ (Describes st) mds ps) (hne : ps ≠ []) :
    ∃ out, setModeInfo r garbage mds = some out ∧
      out.rps = st.Ω ∧ out.rot = rotOf r st ∧
      out.freqs.map Freqs.corotO = ps.map (fun p => scale r * p.w.re) ∧
      out.freqs.map Freqs.inertO = ps.map (fun p => scale r * p.inert st) ∧
      out.freqs.map Freqs.inertF = ps.map (fun p => scale r * p.inert st / (2 * π)) ∧
      (r ≠ .radPerSec ∨ (∀ md ∈ mds, md.inertial = false) →
        out.freqs.map Freqs.corotF = ps.map (fun p => scale r * p.w.re / (2 * π))) ∧
      out.spins = ps.map (fun p => 2 * st.Ω / p.w.re) ∧
      out.dimless.map Freqs.corotO =
        ps.map (fun p => scale r ^ 2 * (p.w.re * √(st.R ^ 3 / (st.G * st.M)))) ∧
      out.dimless.map Freqs.inertO =
        ps.map (fun p => scale r ^ 2 * (p.inert st * √(st.R ^ 3 / (st.G * st.M)))) ∧
      some out.detuning = detuning (ps.map (fun p => scale r * p.w.re)) := by
  obtain ⟨p0, ps', rfl⟩ := List.exists_cons_of_ne_nil hne
  obtain ⟨md0, mds', h0, h', rfl⟩ := List.forall₂_cons_right_iff.1 h
  set mds := md0 :: mds' with hmds
  set ps := p0 :: ps' with hps
  have hlen : mds.length = ps.length := h.length_eq
  obtain ⟨hrps, hrot⟩ := rotFreq_eq r st md0 p0 h0
  change rotFreq r md0 = some (rotOf r st) at hrot
  have hdim := dimFactor_eq r st md0 p0 h0
  have hzip : ∀ l : List ModeDict, List.zip l (l.map (conv r)) = l.map (fun md => (md, conv r md)) := by
    intro l; induction l with
    | nil => rfl
    | cons x xs ih => simp [ih]
  let fs : List Freqs := (List.zip mds (mds.map (conv r))).mapIdx
    (fun i p => adMode r (rotOf r st) (garbage i) p.2 p.1)
  have hfl : fs.length = ps.length := by
    show (List.mapIdx _ _).length = _
    rw [List.length_mapIdx, hzip, List.length_map, hlen]
  have hfi : ∀ i (h1 : i < fs.length) (h2 : i < mds.length),
      fs[i] = adMode r (rotOf r st) (garbage i) (conv r mds[i]) mds[i] := by
    intro i h1 h2
    show (List.mapIdx _ _)[i] = _
    simp only [List.getElem_mapIdx, hzip, List.getElem_map]
  have hall : ∀ i (h1 : i < fs.length) (h2 : i < ps.length) (h3 : i < mds.length),
      fs[i].corotO = scale r * ps[i].w.re ∧ fs[i].inertO = scale r * ps[i].inert st ∧
      fs[i].inertF = scale r * ps[i].inert st / (2 * π) ∧
      (r ≠ .radPerSec ∨ mds[i].inertial = false → fs[i].corotF = scale r * ps[i].w.re / (2 * π)) := by
    intro i h1 h2 h3
    have := adMode_eq r st mds[i] ps[i] (getElem_forall2 h i h3 h2) (garbage i) (conv r mds[i])
      (conv_eq r _)
    rw [hfi i h1 h3]
    exact ⟨this.1, this.2.1, this.2.2.1, this.2.2.2.1⟩
  have hlist : ∀ (F : Freqs → ℝ) (g : Phys → ℝ),
      (∀ i (h1 : i < fs.length) (h2 : i < ps.length), F fs[i] = g ps[i]) → fs.map F = ps.map g := by
    intro F g hF
    apply List.ext_getElem (by simp [hfl])
    intro i h1 h2
    simp only [List.getElem_map]
    exact hF i (by simpa using h1) (by simpa using h2)
  have hco : fs.map Freqs.corotO = ps.map (fun p => scale r * p.w.re) :=
    hlist _ _ (fun i h1 h2 => (hall i h1 h2 (by omega)).1)
  have hdet : ∃ d, detuning (fs.map Freqs.corotO) = some d := by
    rw [hco]; exact ⟨_, rfl⟩
  obtain ⟨d, hd⟩ := hdet
  let k := scale r * √(st.R ^ 3 / (st.G * st.M))
  refine ⟨⟨rpsRot md0, rotOf r st, fs, fs.map (spin r (rotOf r st)), fs.map (dimless k), d⟩, ?_,
    hrps, rfl, hco, hlist _ _ (fun i h1 h2 => (hall i h1 h2 (by omega)).2.1),
    hlist _ _ (fun i h1 h2 => (hall i h1 h2 (by omega)).2.2.1), ?_, ?_, ?_, ?_, ?_⟩
  · have e0 : mds[0]? = some md0 := rfl
    simp only [setModeInfo, mapM_conv, e0, hrot, hdim, Option.bind_eq_bind, Option.bind_some]
    have : detuning (List.map Freqs.corotO ((List.zip mds (mds.map (conv r))).mapIdx
      (fun i p => adMode r (rotOf r st) (garbage i) p.2 p.1))) = some d := hd
    rw [this]
    rfl
  · intro hc
    refine hlist _ _ (fun i h1 h2 => (hall i h1 h2 (by omega)).2.2.2 ?_)
    rcases hc with hc | hc
    · exact Or.inl hc
    · exact Or.inr (hc _ (List.getElem_mem _))
  · refine hlist _ _ (fun i h1 h2 => ?_)
    have hpi : π ≠ 0 := Real.pi_ne_zero
    unfold spin
    rw [(hall i h1 h2 (by omega)).1]
    unfold rotOf
    have hs := scale_pos r
    cases r <;> simp [isAngular, scale] <;> field_simp <;> ring
  · rw [List.map_map]
    refine hlist _ _ (fun i h1 h2 => ?_)
    simp only [Function.comp, dimless, (hall i h1 h2 (by omega)).1, k]; ring
  · rw [List.map_map]
    refine hlist _ _ (fun i h1 h2 => ?_)
    simp only [Function.comp, dimless, (hall i h1 h2 (by omega)).2.1, k]; ring
  · rw [← hco, hd]

/-- **C29 fails** for the co-rotating cyclic frequencies when angular units are requested and the
frequencies were stored in the inertial frame: the result is the (uninitialised) previous content of the
array divided by 2π, so the same physical mode gives different results for different memory contents. -/
theorem C29_corot_freq_wrong (st : Star) (p : Phys) (md : ModeDict) (h : Describes st md p)
    (hi : md.inertial = true) (garbage : Nat → ℝ) :
    ∃ out f, setModeInfo .radPerSec garbage [md] = some out ∧ out.freqs = [f] ∧
      f.corotF = garbage 0 / (2 * π) := by
  obtain ⟨hrps, hrot⟩ := rotFreq_eq .radPerSec st md p h
  have hdim := dimFactor_eq .radPerSec st md p h
  have key := adMode_eq .radPerSec st md p h (garbage 0) (conv .radPerSec md) (conv_eq _ _)
  have e0 : [md][0]? = some md := rfl
  have : ∃ out, setModeInfo .radPerSec garbage [md] = some out ∧ out.freqs = [adMode .radPerSec
      (if isAngular .radPerSec then st.Ω else scale .radPerSec * st.Ω / (2 * π)) (garbage 0)
      (conv .radPerSec md) md] := by
    simp only [setModeInfo, mapM_conv, e0, hrot, hdim, Option.bind_eq_bind, Option.bind_some]
    exact ⟨_, rfl, rfl⟩
  obtain ⟨out, h1, h2⟩ := this
  exact ⟨out, _, h1, h2, key.2.2.2.2 ⟨rfl, hi⟩⟩

/-- **C29 fails** for dimensionless frequencies in μHz or cycles per day: they are too large by the square
of the unit ratio (10¹², 86400²), so they are not dimensionless. -/
theorem C29_dimensionless_wrong (st : Star) (p : Phys) (md : ModeDict) (h : Describes st md p) (r : Req)
    (hr : r = .uhz ∨ r = .cpd ∨ r = .cycPerDay) (garbage : Nat → ℝ)
    (hx : 0 < p.w.re * √(st.R ^ 3 / (st.G * st.M))) :
    ∃ out, setModeInfo r garbage [md] = some out ∧
      out.dimless.map Freqs.corotO = [scale r ^ 2 * (p.w.re * √(st.R ^ 3 / (st.G * st.M)))] ∧
      out.dimless.map Freqs.corotO ≠ [p.w.re * √(st.R ^ 3 / (st.G * st.M))] := by
  obtain ⟨out, h1, -, -, -, -, -, -, -, h2, -⟩ := C29_adiabatic_partial st [p] [md] r garbage
    (List.Forall₂.cons h List.Forall₂.nil) (by simp)
  refine ⟨out, h1, h2, ?_⟩
  rw [h2]
  intro e
  simp only [List.map_cons, List.map_nil, List.cons.injEq, and_true] at e
  set x := p.w.re * √(st.R ^ 3 / (st.G * st.M))
  rcases hr with rfl | rfl | rfl <;> norm_num [scale] at e <;> linarith

/-- A mode stored in the inertial frame in rad/s and the same mode stored in the co-rotating frame in μHz
describe the same physics (star with `GM/R³ = 1`, `Ω = 1/2`, `m = 1`, co-rotating frequency 2 rad/s). -/
example : List.Forall₂ (Describes ⟨1, 1, 1, 1 / 2⟩)
    [⟨5 / 2, 1, true, .radPerSec, some (1 / 2), 0, 1, 1, 1⟩,
     ⟨2 / (2 * (π : ℂ) / 1000000), 1, false, .uhz, none, 1 / 2, 1, 1, 1⟩] [⟨2, 1⟩, ⟨2, 1⟩] := by
  have hpi : (π : ℂ) ≠ 0 := by exact_mod_cast Real.pi_ne_zero
  refine .cons ⟨rfl, rfl, rfl, rfl, ⟨_, rfl, ?_⟩, Or.inl rfl⟩
    (.cons ⟨rfl, rfl, rfl, rfl, ⟨_, rfl, ?_⟩, Or.inr ⟨rfl, by norm_num⟩⟩ .nil)
  · norm_num
  · simp [hpi]

/-! ### Non-adiabatic data -/

theorem conv_congr (r : Req) (a b : ModeDict) (hu : a.units = b.units) (hG : a.G = b.G) (hM : a.M = b.M)
    (hR : a.R = b.R) : conv r a = conv r b := by
  unfold conv factorFromDict; rw [hu, hG, hM, hR]

theorem nadMode_eq (r : Req) (st : Star) (md : ModeDict) (p : Phys) (h : Describes st md p) :
    let o := nadMode r (rotOf r st) (conv r md) md
    o.1.corotO = scale r * p.w.re ∧ o.1.inertO = scale r * p.inert st ∧
    o.1.inertF = scale r * p.inert st / (2 * π) ∧ o.1.corotF = scale r * p.w.re / (2 * π) ∧
    o.2 = scale r * p.w.im := by
  obtain ⟨f', hf', hv⟩ := factor_eq r st md p h
  rw [conv_eq] at hf'
  obtain rfl := Option.some.inj hf'
  have hm := h.1
  have hpi : π ≠ 0 := Real.pi_ne_zero
  set c : ℝ := if isAngular r then 1 else scale r / (2 * π) with hc
  have hre : (conv r md md.freq).re = (if md.inertial then p.w.re + p.m * st.Ω else p.w.re) * c := by
    rw [hv, Complex.re_mul_ofReal]
    congr 1
    split
    · rw [Complex.add_re, Complex.ofReal_re]
    · rfl
  have him : (conv r md md.freq).im = p.w.im * c := by
    rw [hv, Complex.im_mul_ofReal]
    congr 1
    split
    · rw [Complex.add_im, Complex.ofReal_im, add_zero]
    · rfl
  have h2 : ∀ z : ℂ, (z * 2 * (π : ℂ)).re = z.re * 2 * π ∧ (z * 2 * (π : ℂ)).im = z.im * 2 * π := by
    intro z
    rw [Complex.re_mul_ofReal, Complex.im_mul_ofReal]
    constructor <;> congr 1
    · rw [show (2 : ℂ) = ((2 : ℝ) : ℂ) by norm_num, Complex.re_mul_ofReal]
    · rw [show (2 : ℂ) = ((2 : ℝ) : ℂ) by norm_num, Complex.im_mul_ofReal]
  have h3 : ∀ z : ℂ, (z / ((π : ℂ) * 2)).re = z.re / (π * 2) := by
    intro z
    rw [show ((π : ℂ) * 2) = ((π * 2 : ℝ) : ℂ) by push_cast; ring, Complex.div_ofReal_re]
  intro o
  have ho : o = nadMode r (rotOf r st) (conv r md) md := rfl
  rw [ho]
  unfold nadMode ocfc fcfc rotOf
  by_cases hr : r = .radPerSec
  · subst hr
    simp only [isAngular, if_true, scale, one_mul] at hc hre him ⊢
    cases hi : md.inertial
    · simp [hi] at hre
      simp [h3, hre, him, hc, hm, Phys.inert]; ring_nf
    · simp [hi] at hre
      simp [h3, hre, him, hc, hm, Phys.inert]; ring_nf
  · have ha : isAngular r = false := by cases r <;> simp_all [isAngular]
    simp only [ha, Bool.false_eq_true, if_false] at hc ⊢
    cases hi : md.inertial
    · simp only [hi, Bool.false_eq_true, if_false] at hre
      simp only [Bool.false_eq_true, if_false, (h2 _).1, (h2 _).2, hre, him, hc, hm, Phys.inert]
      refine ⟨?_, ?_, ?_, ?_, ?_⟩ <;> field_simp
    · simp only [hi, if_true] at hre
      simp only [if_true, (h2 _).1, (h2 _).2, Complex.sub_im, Complex.ofReal_im, sub_zero, hre, him, hc,
        hm, Phys.inert]
      refine ⟨?_, ?_, ?_, ?_, ?_⟩ <;> field_simp <;> ring

/-- **C29** (non-adiabatic): adiabatic dictionaries `ad` describe modes `ps`, non-adiabatic ones `nad`
describe modes `qs` of the same star, each in any supported unit and either frame.  If the two sets use the
same units mode by mode, or the non-adiabatic ones use only Hz, μHz, rad/s and cycles per day (otherwise
the code exits), then the non-adiabatic frequencies in both frames and the driving rates are the given
functions of the physical (complex) frequencies. -/
theorem C29_nonadiabatic (st : Star) (ps qs : List Phys) (ad nad : List ModeDict) (r : Req) (out : AdOut)
    (h : List.Forall₂ (Describes st) ad ps) (hn : List.Forall₂ (Describes st) nad qs)
    (hlen : ps.length = qs.length) (hne : ps ≠ []) (hrot : out.rot = rotOf r st)
    (hu : (∀ i (h1 : i < ad.length) (h2 : i < nad.length), ad[i].units = nad[i].units) ∨
      (∀ md ∈ nad, ∀ n, md.units ≠ .other n)) :
    ∃ o, setNadInfo r ad nad out = some o ∧
      o.freqs.map Freqs.corotO = qs.map (fun p => scale r * p.w.re) ∧
      o.freqs.map Freqs.inertO = qs.map (fun p => scale r * p.inert st) ∧
      o.freqs.map Freqs.inertF = qs.map (fun p => scale r * p.inert st / (2 * π)) ∧
      o.freqs.map Freqs.corotF = qs.map (fun p => scale r * p.w.re / (2 * π)) ∧
      o.rates = qs.map (fun p => scale r * p.w.im) ∧
      o.qf = qualityFactors (out.freqs.map Freqs.corotO) o.rates ∧
      o.qfNad = qualityFactors (o.freqs.map Freqs.corotO) o.rates ∧
      o.qfp = qfProducts o.qf ∧ o.qfpNad = qfProducts o.qfNad ∧
      o.gammaSum = o.rates.sum ∧
      some o.detuningNad = detuning (qs.map (fun p => scale r * p.w.re)) ∧
      o.q = out.detuning / o.gammaSum ∧ o.qNad = o.detuningNad / o.gammaSum ∧
      (∀ g, o.rates[0]? = some g → o.q1 = out.detuning / g ∧ o.q1Nad = o.detuningNad / g) := by
  have hla := h.length_eq
  have hln := hn.length_eq
  -- the conversion functions are those of the non-adiabatic dictionaries
  have hconv : nadConv r ad nad = some (nad.map (conv r)) := by
    unfold nadConv
    split
    · rename_i hs
      rw [mapM_conv]
      congr 1
      apply List.ext_getElem (by simp; omega)
      intro i h1 h2
      simp only [List.length_map] at h1 h2
      simp only [List.getElem_map]
      have e : ad[i].units = nad[i].units := by
        rw [List.all_eq_true] at hs
        have hi : i < (List.zip ad nad).length := by simp; omega
        have := hs (List.zip ad nad)[i] (List.getElem_mem hi)
        simpa using this
      have d1 := getElem_forall2 h i h1 (by omega)
      have d2 := getElem_forall2 hn i h2 (by omega)
      exact conv_congr r _ _ e (d1.2.1.trans d2.2.1.symm) (d1.2.2.1.trans d2.2.2.1.symm)
        (d1.2.2.2.1.trans d2.2.2.2.1.symm)
    · rename_i hs
      rcases hu with hu | hu
      · exfalso
        apply hs
        rw [List.all_eq_true]
        intro x hx
        obtain ⟨i, hi, rfl⟩ := List.getElem_of_mem hx
        simp only [List.length_zip] at hi
        simpa using hu i (by omega) (by omega)
      · apply mapM_total
        intro md hmd
        have := hu md hmd
        unfold conv factorFromDict
        cases hs' : md.units with
        | other n => exact absurd hs' (this n)
        | _ => cases r <;> rfl
  obtain ⟨q0, qs', rfl⟩ : ∃ a b, qs = a :: b := List.exists_cons_of_ne_nil (by
    intro e; apply hne; rw [← List.length_eq_zero_iff, hlen, e]; rfl)
  obtain ⟨p0, ps', rfl⟩ := List.exists_cons_of_ne_nil hne
  obtain ⟨ad0, ad', h0, -, rfl⟩ := List.forall₂_cons_right_iff.1 h
  have hdim := dimFactor_eq r st ad0 p0 h0
  have hzip : ∀ l : List ModeDict, List.zip l (l.map (conv r)) = l.map (fun md => (md, conv r md)) := by
    intro l; induction l with
    | nil => rfl
    | cons x xs ih => simp [ih]
  let fr := nad.map (fun md => nadMode r (rotOf r st) (conv r md) md)
  have hlist : ∀ (F : Freqs × ℝ → ℝ) (g : Phys → ℝ),
      (∀ md p, Describes st md p → F (nadMode r (rotOf r st) (conv r md) md) = g p) →
      fr.map F = (q0 :: qs').map g := by
    intro F g hF
    apply List.ext_getElem (by simp only [fr, List.length_map]; omega)
    intro i h1 h2
    simp only [fr, List.length_map] at h1 h2
    simp only [fr, List.getElem_map]
    exact hF _ _ (getElem_forall2 hn i h1 h2)
  have e1 : fr.map (fun o => o.1.corotO) = _ := hlist _ _ (fun md p d => (nadMode_eq r st md p d).1)
  have e2 : fr.map (fun o => o.1.inertO) = _ := hlist _ _ (fun md p d => (nadMode_eq r st md p d).2.1)
  have e3 : fr.map (fun o => o.1.inertF) = _ := hlist _ _ (fun md p d => (nadMode_eq r st md p d).2.2.1)
  have e4 : fr.map (fun o => o.1.corotF) = _ := hlist _ _ (fun md p d => (nadMode_eq r st md p d).2.2.2.1)
  have e5 : fr.map (fun o => o.2) = _ := hlist _ _ (fun md p d => (nadMode_eq r st md p d).2.2.2.2)
  have hl2 : ¬ (nad.length ≠ (ad0 :: ad').length) := by
    rw [not_not]; omega
  have m1 : ∀ F : Freqs → ℝ, (fr.map Prod.fst).map F = fr.map (fun o => F o.1) := by
    intro F; rw [List.map_map]; rfl
  have hd : detuning ((fr.map Prod.fst).map Freqs.corotO) =
      some (scale r * q0.w.re - (qs'.map (fun p => scale r * p.w.re)).sum) := by
    rw [m1, e1]; rfl
  have hg : (fr.map Prod.snd)[0]? = some (scale r * q0.w.im) := by
    have : fr.map Prod.snd = fr.map (fun o => o.2) := rfl
    rw [this, e5]; rfl
  have hfr : (List.zip nad (nad.map (conv r))).map (fun p => nadMode r out.rot p.2 p.1) = fr := by
    rw [hzip, List.map_map, hrot]; rfl
  have hrun : ∃ o, setNadInfo r (ad0 :: ad') nad out = some o ∧ o.freqs = fr.map Prod.fst ∧
      o.rates = fr.map Prod.snd ∧
      o.qf = qualityFactors (out.freqs.map Freqs.corotO) o.rates ∧
      o.qfNad = qualityFactors (o.freqs.map Freqs.corotO) o.rates ∧
      o.qfp = qfProducts o.qf ∧ o.qfpNad = qfProducts o.qfNad ∧
      o.gammaSum = o.rates.sum ∧
      o.detuningNad = scale r * q0.w.re - (qs'.map (fun p => scale r * p.w.re)).sum ∧
      o.q = out.detuning / o.gammaSum ∧ o.qNad = o.detuningNad / o.gammaSum ∧
      o.q1 = out.detuning / (scale r * q0.w.im) ∧ o.q1Nad = o.detuningNad / (scale r * q0.w.im) := by
    have h00 : (ad0 :: ad')[0]? = some ad0 := rfl
    unfold setNadInfo
    rw [if_neg hl2]
    simp only [hconv, hfr, h00, hdim, hd, hg, Option.bind_eq_bind, Option.bind_some, Option.pure_def]
    exact ⟨_, rfl, rfl, rfl, rfl, rfl, rfl, rfl, rfl, rfl, rfl, rfl, rfl, rfl⟩
  obtain ⟨o, r1, r2, r3, r4, r5, r6, r7, r8, r9, r10, r11, r12, r13⟩ := hrun
  refine ⟨o, r1, ?_, ?_, ?_, ?_, ?_, r4, r5, r6, r7, r8, ?_, r10, r11, ?_⟩
  · rw [r2, m1, e1]
  · rw [r2, m1, e2]
  · rw [r2, m1, e3]
  · rw [r2, m1, e4]
  · rw [r3, ← e5]
  · rw [r9]; rfl
  · intro g hg'
    rw [r3, hg] at hg'
    obtain rfl := Option.some.inj hg'
    exact ⟨r12, r13⟩

/-! ## C31 -/

/-- **C31**: for every star, every triad `a, b, c` of adiabatic modes with non-adiabatic counterparts
`x, y, z` (Hz, μHz, rad/s, cycles per day, or the same unit for both, any frame), every requested unit: the
detuning is parent minus daughters, `gamma_sum` the sum of the rates, `q` and `q1` the detuning over the sum
and over the parent's rate, the quality factors frequency over rate, and their products come in the order
`(Q₂Q₁, Q₃Q₁, Q₃Q₂)`.  (Over the reals division by a zero rate is 0; numpy gives inf/nan.) -/
theorem C31_triad (st : Star) (a b c x y z : Phys) (ad nad : List ModeDict) (r : Req)
    (garbage : Nat → ℝ) (h : List.Forall₂ (Describes st) ad [a, b, c])
    (hn : List.Forall₂ (Describes st) nad [x, y, z])
    (hu : (∀ i (h1 : i < ad.length) (h2 : i < nad.length), ad[i].units = nad[i].units) ∨
      (∀ md ∈ nad, ∀ n, md.units ≠ .other n)) :
    ∃ out o, setModeInfo r garbage ad = some out ∧ setNadInfo r ad nad out = some o ∧
      out.detuning = scale r * (a.w.re - (b.w.re + c.w.re)) ∧
      o.detuningNad = scale r * (x.w.re - (y.w.re + z.w.re)) ∧
      o.rates = [scale r * x.w.im, scale r * y.w.im, scale r * z.w.im] ∧
      o.gammaSum = scale r * (x.w.im + y.w.im + z.w.im) ∧
      o.q = (a.w.re - (b.w.re + c.w.re)) / (x.w.im + y.w.im + z.w.im) ∧
      o.q1 = (a.w.re - (b.w.re + c.w.re)) / x.w.im ∧
      o.qNad = (x.w.re - (y.w.re + z.w.re)) / (x.w.im + y.w.im + z.w.im) ∧
      o.q1Nad = (x.w.re - (y.w.re + z.w.re)) / x.w.im ∧
      o.qf = [a.w.re / x.w.im, b.w.re / y.w.im, c.w.re / z.w.im] ∧
      o.qfp = [b.w.re / y.w.im * (a.w.re / x.w.im), c.w.re / z.w.im * (a.w.re / x.w.im),
        c.w.re / z.w.im * (b.w.re / y.w.im)] ∧
      o.qfpNad = [y.w.re / y.w.im * (x.w.re / x.w.im), z.w.re / z.w.im * (x.w.re / x.w.im),
        z.w.re / z.w.im * (y.w.re / y.w.im)] := by
  obtain ⟨out, g1, -, g2, g3, -, -, -, -, -, -, g4⟩ := C29_adiabatic_partial st [a, b, c] ad r garbage h
    (by simp)
  obtain ⟨o, k1, k2, -, -, -, k3, k4, k5, k6, k7, k8, k9, k10, k11, k12⟩ := C29_nonadiabatic st [a, b, c]
    [x, y, z] ad nad r out h hn rfl (by simp) g2 hu
  have hs : scale r ≠ 0 := (scale_pos r).ne'
  have canc : ∀ u v : ℝ, scale r * u / (scale r * v) = u / v := fun u v => mul_div_mul_left u v hs
  have d1 : out.detuning = scale r * (a.w.re - (b.w.re + c.w.re)) := by
    simp only [detuning, List.map_cons, List.map_nil, List.sum_cons, List.sum_nil,
      Option.some.injEq] at g4
    rw [g4]; ring
  have d2 : o.detuningNad = scale r * (x.w.re - (y.w.re + z.w.re)) := by
    simp only [detuning, List.map_cons, List.map_nil, List.sum_cons, List.sum_nil,
      Option.some.injEq] at k9
    rw [k9]; ring
  have d3 : o.rates = [scale r * x.w.im, scale r * y.w.im, scale r * z.w.im] := k3
  have d4 : o.gammaSum = scale r * (x.w.im + y.w.im + z.w.im) := by
    rw [k8, d3]; simp only [List.sum_cons, List.sum_nil]; ring
  obtain ⟨t1, t2⟩ := k12 _ (by rw [d3]; rfl)
  have d5 : o.qf = [a.w.re / x.w.im, b.w.re / y.w.im, c.w.re / z.w.im] := by
    rw [k4, g3, d3]
    simp only [qualityFactors, List.map_cons, List.map_nil, List.zipWith_cons_cons,
      List.zipWith_nil_right, canc]
  have d6 : o.qfNad = [x.w.re / x.w.im, y.w.re / y.w.im, z.w.re / z.w.im] := by
    rw [k5, k2, d3]
    simp only [qualityFactors, List.map_cons, List.map_nil, List.zipWith_cons_cons,
      List.zipWith_nil_right, canc]
  have prod : ∀ u v w : ℝ, qfProducts [u, v, w] = [v * u, w * u, w * v] := by
    intro u v w
    have : qfProducts [u, v, w] = [u * v, u * w, v * w] := rfl
    rw [this, mul_comm u v, mul_comm u w, mul_comm v w]
  refine ⟨out, o, g1, k1, d1, d2, d3, d4, ?_, ?_, ?_, ?_, d5, ?_, ?_⟩
  · rw [k10, d1, d4, canc]
  · rw [t1, d1, canc]
  · rw [k11, d2, d4, canc]
  · rw [t2, d2, canc]
  · rw [k6, d5, prod]
  · rw [k7, d6, prod]

/-- The products are those used by the stationary-amplitude solver. -/
theorem C31_products_used (s : Stab.StatIn) :
    qfProducts (qualityFactors [s.ω 0, s.ω 1, s.ω 2] [s.γ 0, s.γ 1, s.γ 2]) =
      [s.qfProducts 0, s.qfProducts 1, s.qfProducts 2] := by
  have : qfProducts (qualityFactors [s.ω 0, s.ω 1, s.ω 2] [s.γ 0, s.γ 1, s.γ 2]) =
    [s.ω 0 / s.γ 0 * (s.ω 1 / s.γ 1), s.ω 0 / s.γ 0 * (s.ω 2 / s.γ 2),
      s.ω 1 / s.γ 1 * (s.ω 2 / s.γ 2)] := rfl
  rw [this]
  simp only [Stab.StatIn.qfProducts, Matrix.cons_val_zero, Matrix.cons_val_one]
  rw [mul_comm (s.ω 0 / s.γ 0), mul_comm (s.ω 0 / s.γ 0), mul_comm (s.ω 1 / s.γ 1) (s.ω 2 / s.γ 2)]
  rfl

end Verif.Freq
