import Verif.Tar.Adjust
import Mathlib.Tactic.NormNum
import Mathlib.Tactic.Linarith
import Mathlib.Tactic.FieldSimp
/-!
# C98–C101: TAR-validity zones, the adjusted coupling coefficient and its profile
-/
namespace Verif.Tar
open Finset

/-! ### Specification -/

/-- The Coriolis frequency is at most a tenth of the Brunt–Väisälä frequency at grid point `k`. -/
def RotOk (i : Inp) (k : ℕ) : Prop := ∃ x, i.n2[k]? = some x ∧ 0 ≤ x ∧ 2 * |i.rotRps| < √x / 10

/-- All mode frequencies are at most a tenth of the Brunt–Väisälä frequency at grid point `k`. -/
def FreqOk (i : Inp) (k : ℕ) : Prop :=
  ∃ x, i.n2[k]? = some x ∧ (i.omegas ≠ [] → 0 ≤ x) ∧ ∀ w ∈ i.omegas, |w| < |i.conv| * √x / 10

/-- The traditional approximation holds at grid point `k`. -/
def TarHolds (i : Inp) (k : ℕ) : Prop := RotOk i k ∧ FreqOk i k

/-- The modes are on the slow manifold. -/
def Slow (i : Inp) : Prop := ∀ q ∈ i.qfac, 10 < |q|

open Classical in
theorem rotCheck_get (i : Inp) (k : ℕ) (hk : k < i.n2.length) :
    (rotCheck i)[k]? = some (decide (RotOk i k)) := by
  unfold rotCheck RotOk
  rw [List.getElem?_map, List.getElem?_eq_getElem hk]
  simp only [Option.map_some, Option.some.injEq]
  unfold bruntRps
  split_ifs with h
  · simp only [Option.map_some, gtNan, decide_eq_decide, exists_eq_left']
    have h1 : |(0.1 : ℝ) * √(i.n2[k])| = √(i.n2[k]) / 10 := by
      rw [abs_of_nonneg (by positivity)]; ring
    have h2 : |(2.0 : ℝ) * i.rotRps| = 2 * |i.rotRps| := by
      rw [abs_mul]; norm_num
    rw [h1, h2]
    tauto
  · simp only [Option.map_none, gtNan, exists_eq_left']
    symm
    simp [h]

open Classical in
theorem indCheck_get (i : Inp) (k : ℕ) (hk : k < i.n2.length) :
    (indCheck i)[k]? = some (decide (FreqOk i k)) := by
  unfold indCheck FreqOk
  rw [List.getElem?_map, List.getElem?_eq_getElem hk]
  simp only [Option.map_some, Option.some.injEq]
  rw [Bool.eq_iff_iff, List.all_eq_true, decide_eq_true_iff]
  simp only [exists_eq_left']
  unfold bruntRps
  split_ifs with h
  · have h1 : |(0.1 : ℝ) * i.conv * √(i.n2[k])| = |i.conv| * √(i.n2[k]) / 10 := by
      rw [abs_mul, abs_mul, abs_of_nonneg (Real.sqrt_nonneg _)]
      rw [abs_of_pos (by norm_num : (0 : ℝ) < 0.1)]; ring
    simp only [Option.map_some, gtNan, decide_eq_true_eq, h1]
    constructor
    · intro h'; exact ⟨fun _ => h, h'⟩
    · rintro ⟨_, h'⟩; exact h'
  · simp only [Option.map_none, gtNan]
    constructor
    · intro h'
      have he : i.omegas = [] := by
        cases ho : i.omegas with
        | nil => rfl
        | cons a l => rw [ho] at h'; exact absurd (h' a (by simp)) (by simp)
      rw [he]; simp
    · rintro ⟨h1, _⟩ w hw
      exact absurd (h1 (by rintro he; rw [he] at hw; simp at hw)) h

theorem rotCheck_length (i : Inp) : (rotCheck i).length = i.n2.length := by simp [rotCheck]
theorem indCheck_length (i : Inp) : (indCheck i).length = i.n2.length := by simp [indCheck]
theorem tarValid_length (i : Inp) : (tarValid i).length = i.n2.length := by
  simp [tarValid, rotCheck, indCheck]

open Classical in
theorem tarValid_get (i : Inp) (k : ℕ) (hk : k < i.n2.length) :
    (tarValid i)[k]? = some (decide (TarHolds i k)) := by
  unfold tarValid TarHolds
  rw [List.getElem?_zipWith, rotCheck_get i k hk, indCheck_get i k hk]
  simp

theorem TarHolds.lt {i : Inp} {k : ℕ} (h : TarHolds i k) : k < i.n2.length := by
  obtain ⟨⟨x, hx, _⟩, _⟩ := h
  exact (List.getElem?_eq_some_iff.1 hx).1

theorem mem_valid_true (i : Inp) : true ∈ tarValid i ↔ ∃ k, TarHolds i k := by
  constructor
  · intro h
    obtain ⟨k, hk, hh⟩ := List.getElem_of_mem h
    have hk' : k < i.n2.length := by rwa [tarValid_length] at hk
    have := tarValid_get i k hk'
    rw [List.getElem?_eq_getElem hk, hh] at this
    exact ⟨k, by simpa using this⟩
  · rintro ⟨k, hk⟩
    have := tarValid_get i k hk.lt
    simp only [hk, decide_true] at this
    exact List.mem_of_getElem? this

theorem mem_valid_false (i : Inp) : false ∈ tarValid i ↔ ∃ k, k < i.n2.length ∧ ¬ TarHolds i k := by
  constructor
  · intro h
    obtain ⟨k, hk, hh⟩ := List.getElem_of_mem h
    have hk' : k < i.n2.length := by rwa [tarValid_length] at hk
    have := tarValid_get i k hk'
    rw [List.getElem?_eq_getElem hk, hh] at this
    exact ⟨k, hk', by simpa using this⟩
  · rintro ⟨k, hk, hn⟩
    have := tarValid_get i k hk
    simp only [hn, decide_false] at this
    exact List.mem_of_getElem? this

theorem slow_iff (i : Inp) : slowManifold i = true ↔ Slow i := by
  unfold slowManifold Slow
  rw [List.all_eq_true]
  have : (10.0 : ℝ) = 10 := by norm_num
  simp only [decide_eq_true_eq, this]

/-- Result of the method when the profile has both valid and invalid points. -/
theorem masking_good (i : Inp) (hs : Slow i) (ht : ∃ k, TarHolds i k)
    (hf : ∃ k, k < i.n2.length ∧ ¬ TarHolds i k) : ∃ r, masking i = .ok r ∧ Good (tarValid i) r := by
  unfold masking
  rw [(slow_iff i).2 hs]
  exact zonesOf_good _ _ _ ((mem_valid_true i).2 ht) ((mem_valid_false i).2 hf)

open Classical in
/-- **C98.**  For every model and triad on the slow manifold whose profile has both valid and invalid points: the
method succeeds; its point mask is the frequency-hierarchy criterion; its valid masks select exactly the maximal
valid zones from the centre to the surface, its invalid masks exactly the maximal invalid zones; and the index pair of
every invalid zone runs from its first point to the first point after it (the last grid point at the surface). -/
theorem C98_zones (i : Inp) (hs : Slow i) (ht : ∃ k, TarHolds i k)
    (hf : ∃ k, k < i.n2.length ∧ ¬ TarHolds i k) :
    ∃ r zv zn, masking i = .ok r ∧ r.fully = false ∧
      r.valid.length = i.n2.length ∧ (∀ k, k < i.n2.length → r.valid[k]? = some (decide (TarHolds i k))) ∧
      r.vMasks.map (Option.map (Slice.range i.n2.length)) = zv.map some ∧ IsZones r.valid true zv ∧
      r.nMasks.map (Option.map (Slice.range i.n2.length)) = zn.map some ∧ IsZones r.valid false zn ∧
      r.nonIdx = zn.map fun z => (z.1, min z.2 (i.n2.length - 1)) := by
  obtain ⟨r, hr, g⟩ := masking_good i hs ht hf
  refine ⟨r, runs (tarValid i), runsF (tarValid i), hr, g.fully, by rw [g.valid, tarValid_length], ?_, ?_, ?_, ?_,
    ?_, ?_⟩
  · intro k hk; rw [g.valid]; exact tarValid_get i k hk
  · rw [← g.vm, ranges, tarValid_length]
  · rw [g.valid]; exact isZones_runs _
  · rw [← g.nm, ranges, tarValid_length]
  · rw [g.valid]; exact isZones_runsF _
  · rw [g.idx, tarValid_length]

/-- **C98**, the message: the logged message names the state of the centre and of the surface. -/
theorem C98_message (i : Inp) (hs : Slow i) (ht : ∃ k, TarHolds i k)
    (hf : ∃ k, k < i.n2.length ∧ ¬ TarHolds i k) :
    ∃ r, masking i = .ok r ∧
      (r.warn = .coreSurfValid ↔ TarHolds i 0 ∧ TarHolds i (i.n2.length - 1)) ∧
      (r.warn = .coreSurfInvalid ↔ ¬ TarHolds i 0 ∧ ¬ TarHolds i (i.n2.length - 1)) ∧
      (r.warn = .surfValid ↔ ¬ TarHolds i 0 ∧ TarHolds i (i.n2.length - 1)) ∧
      (r.warn = .coreValid ↔ TarHolds i 0 ∧ ¬ TarHolds i (i.n2.length - 1)) := by
  classical
  obtain ⟨r, hr, g⟩ := masking_good i hs ht hf
  refine ⟨r, hr, ?_⟩
  have hn : 0 < i.n2.length := by obtain ⟨k, hk⟩ := ht; have := hk.lt; omega
  have h1 : (tarValid i).head? = some (decide (TarHolds i 0)) := by
    rw [List.head?_eq_getElem?]; exact tarValid_get i 0 hn
  have h2 : (tarValid i).getLast? = some (decide (TarHolds i (i.n2.length - 1))) := by
    rw [List.getLast?_eq_getElem?, tarValid_length]; exact tarValid_get i _ (by omega)
  have hw := g.warn
  rw [h1, h2] at hw
  by_cases ha : TarHolds i 0 <;> by_cases hb : TarHolds i (i.n2.length - 1) <;>
    simp [ha, hb] at hw <;> simp [hw, ha, hb]

/-! ### C99: when the method succeeds -/

theorem uniqueB_spec (l : List Bool) :
    uniqueB l = (if false ∈ l then [false] else []) ++ (if true ∈ l then [true] else []) := by
  unfold uniqueB
  by_cases h1 : false ∈ l <;> by_cases h2 : true ∈ l <;> simp [h1, h2]

theorem noZone_ok (ind rot : List Bool) (w : Warn) :
    (noZoneWarn ind rot = .ok w ↔
      (w = .individual ∧ (false ∈ ind ∧ true ∉ ind) ∧ ¬ (false ∈ rot ∧ true ∉ rot) ∧ ¬ (true ∈ rot ∧ false ∉ rot)) ∨
      (w = .coriolis ∧ (false ∈ rot ∧ true ∉ rot) ∧ ¬ (false ∈ ind ∧ true ∉ ind) ∧ ¬ (true ∈ ind ∧ false ∉ ind)) ∨
      (w = .both ∧ (false ∈ rot ∧ true ∉ rot) ∧ (false ∈ ind ∧ true ∉ ind))) := by
  unfold noZoneWarn
  simp only [uniqueB_spec]
  by_cases h1 : false ∈ ind <;> by_cases h2 : true ∈ ind <;> by_cases h3 : false ∈ rot <;>
    by_cases h4 : true ∈ rot <;> simp [h1, h2, h3, h4, eq_comm]

theorem starts_of_const (v : List Bool) (c : Bool) (h : ∀ x ∈ v, x = c) : starts v = [] ∧ ends v = [] := by
  have hv : v = List.replicate v.length c := List.eq_replicate_of_mem h
  have : ∀ n, starts (List.replicate n c) = [] ∧ ends (List.replicate n c) = [] := by
    intro n
    induction n with
    | zero => exact ⟨rfl, rfl⟩
    | succ n ih =>
      cases n with
      | zero => exact ⟨rfl, rfl⟩
      | succ n =>
        rw [List.replicate_succ, List.replicate_succ, starts_cons2, ends_cons2, ← List.replicate_succ, ih.1, ih.2]
        cases c <;> simp
  rw [hv]; exact this _

theorem masking_const (i : Inp) (hs : Slow i) (c : Bool) (h : ∀ x ∈ tarValid i, x = c) :
    masking i = match noZoneWarn (indCheck i) (rotCheck i) with
      | .error e => .error e
      | .ok w => .ok { valid := tarValid i, nonIdx := [(0, i.n2.length - 1)], vMasks := [none],
                       nMasks := [some ⟨none, none⟩], fully := true, warn := w } := by
  obtain ⟨h1, h2⟩ := starts_of_const _ c h
  unfold masking zonesOf
  rw [(slow_iff i).2 hs, h1, h2, tarValid_length]
  simp only [Bool.true_eq_false, if_false, List.length_nil, and_self, if_true]
  cases noZoneWarn (indCheck i) (rotCheck i) <;> rfl

theorem mem_rot (i : Inp) : (true ∈ rotCheck i ↔ ∃ k, RotOk i k) ∧
    (false ∈ rotCheck i ↔ ∃ k, k < i.n2.length ∧ ¬ RotOk i k) := by
  classical
  have hlt : ∀ k, RotOk i k → k < i.n2.length := by
    rintro k ⟨x, hx, _⟩; exact (List.getElem?_eq_some_iff.1 hx).1
  constructor
  · constructor
    · intro h
      obtain ⟨k, hk, hh⟩ := List.getElem_of_mem h
      have hk' : k < i.n2.length := by rwa [rotCheck_length] at hk
      have := rotCheck_get i k hk'
      rw [List.getElem?_eq_getElem hk, hh] at this
      exact ⟨k, by simpa using this⟩
    · rintro ⟨k, hk⟩
      have := rotCheck_get i k (hlt k hk)
      simp only [hk, decide_true] at this
      exact List.mem_of_getElem? this
  · constructor
    · intro h
      obtain ⟨k, hk, hh⟩ := List.getElem_of_mem h
      have hk' : k < i.n2.length := by rwa [rotCheck_length] at hk
      have := rotCheck_get i k hk'
      rw [List.getElem?_eq_getElem hk, hh] at this
      exact ⟨k, hk', by simpa using this⟩
    · rintro ⟨k, hk, hn⟩
      have := rotCheck_get i k hk
      simp only [hn, decide_false] at this
      exact List.mem_of_getElem? this

theorem mem_ind (i : Inp) : (true ∈ indCheck i ↔ ∃ k, FreqOk i k) ∧
    (false ∈ indCheck i ↔ ∃ k, k < i.n2.length ∧ ¬ FreqOk i k) := by
  classical
  have hlt : ∀ k, FreqOk i k → k < i.n2.length := by
    rintro k ⟨x, hx, _⟩; exact (List.getElem?_eq_some_iff.1 hx).1
  constructor
  · constructor
    · intro h
      obtain ⟨k, hk, hh⟩ := List.getElem_of_mem h
      have hk' : k < i.n2.length := by rwa [indCheck_length] at hk
      have := indCheck_get i k hk'
      rw [List.getElem?_eq_getElem hk, hh] at this
      exact ⟨k, by simpa using this⟩
    · rintro ⟨k, hk⟩
      have := indCheck_get i k (hlt k hk)
      simp only [hk, decide_true] at this
      exact List.mem_of_getElem? this
  · constructor
    · intro h
      obtain ⟨k, hk, hh⟩ := List.getElem_of_mem h
      have hk' : k < i.n2.length := by rwa [indCheck_length] at hk
      have := indCheck_get i k hk'
      rw [List.getElem?_eq_getElem hk, hh] at this
      exact ⟨k, hk', by simpa using this⟩
    · rintro ⟨k, hk, hn⟩
      have := indCheck_get i k hk
      simp only [hn, decide_false] at this
      exact List.mem_of_getElem? this

/-- **C99.**  Full statement: for every non-empty model and slow triad the method returns the zones.  Proved: exactly
when it does.  Missing because false: models in which the approximation holds everywhere, and models without a valid
point in which one criterion holds everywhere or both hold somewhere, raise `PhysicsError`. -/
theorem C99_outcome_partial (i : Inp) (hn : i.n2 ≠ []) :
    (∃ r, masking i = .ok r) ↔
      Slow i ∧ ((∃ k, TarHolds i k) ∧ (∃ k, k < i.n2.length ∧ ¬ TarHolds i k) ∨
        (∀ k, ¬ RotOk i k) ∧ (∃ k, k < i.n2.length ∧ ¬ FreqOk i k) ∨
        (∀ k, ¬ FreqOk i k) ∧ (∃ k, k < i.n2.length ∧ ¬ RotOk i k)) := by
  have hpos : 0 < i.n2.length := List.length_pos_iff.2 hn
  by_cases hs : Slow i
  swap
  · constructor
    · rintro ⟨r, hr⟩
      have : slowManifold i = false := by
        rw [← Bool.not_eq_true, slow_iff]; exact hs
      unfold masking zonesOf at hr
      rw [this] at hr
      simp at hr
    · rintro ⟨h, _⟩; exact absurd h hs
  simp only [hs, true_and]
  by_cases h1 : ∃ k, TarHolds i k
  · by_cases h2 : ∃ k, k < i.n2.length ∧ ¬ TarHolds i k
    · obtain ⟨r, hr, _⟩ := masking_good i hs h1 h2
      simp only [h1, h2, true_and, true_or, iff_true]
      exact ⟨r, hr⟩
    · -- valid everywhere
      have hall : ∀ k, k < i.n2.length → TarHolds i k := by
        intro k hk; by_contra hc; exact h2 ⟨k, hk, hc⟩
      have hc : ∀ x ∈ tarValid i, x = true := by
        intro x hx
        cases x with
        | true => rfl
        | false => exact absurd ((mem_valid_false i).1 hx) h2
      rw [masking_const i hs true hc]
      have h0 := hall 0 hpos
      constructor
      · rintro ⟨r, hr⟩
        cases hw : noZoneWarn (indCheck i) (rotCheck i) with
        | error e => rw [hw] at hr; simp at hr
        | ok w =>
          rw [noZone_ok] at hw
          have a1 := (mem_ind i).1.2 ⟨0, h0.2⟩
          have a2 := (mem_rot i).1.2 ⟨0, h0.1⟩
          tauto
      · rintro (⟨_, h⟩ | ⟨h, _⟩ | ⟨h, _⟩)
        · exact absurd h h2
        · exact absurd h0.1 (h 0)
        · exact absurd h0.2 (h 0)
  · have hc : ∀ x ∈ tarValid i, x = false := by
      intro x hx
      cases x with
      | false => rfl
      | true => exact absurd ((mem_valid_true i).1 hx) h1
    rw [masking_const i hs false hc]
    have r1 := mem_rot i
    have r2 := mem_ind i
    constructor
    · rintro ⟨r, hr⟩
      cases hw : noZoneWarn (indCheck i) (rotCheck i) with
      | error e => rw [hw] at hr; simp at hr
      | ok w =>
        rw [noZone_ok, r1.1, r1.2, r2.1, r2.2] at hw
        right
        rcases hw with ⟨_, ⟨_, a⟩, b, c⟩ | ⟨_, ⟨_, a⟩, b, c⟩ | ⟨_, ⟨_, a⟩, b, c⟩
        · right
          refine ⟨fun k hk => a ⟨k, hk⟩, ?_⟩
          by_cases hr : ∃ k, RotOk i k
          · by_contra hcon; exact c ⟨hr, hcon⟩
          · exact ⟨0, hpos, fun h => hr ⟨0, h⟩⟩
        · left
          refine ⟨fun k hk => a ⟨k, hk⟩, ?_⟩
          by_cases hr : ∃ k, FreqOk i k
          · by_contra hcon; exact c ⟨hr, hcon⟩
          · exact ⟨0, hpos, fun h => hr ⟨0, h⟩⟩
        · left
          exact ⟨fun k hk => a ⟨k, hk⟩, b⟩
    · rintro (⟨h, _⟩ | ⟨h, h'⟩ | ⟨h, h'⟩)
      · exact absurd h h1
      · have hrot : (∃ k, k < i.n2.length ∧ ¬ RotOk i k) := ⟨0, hpos, h 0⟩
        have hno : ¬ ∃ k, RotOk i k := by rintro ⟨k, hk⟩; exact h k hk
        have hw : ∃ w, noZoneWarn (indCheck i) (rotCheck i) = .ok w := by
          by_cases hq : ∃ k, FreqOk i k
          · refine ⟨.coriolis, by
              rw [noZone_ok, r1.1, r1.2, r2.1, r2.2]
              exact Or.inr (Or.inl ⟨rfl, ⟨hrot, hno⟩, fun c => c.2 hq, fun c => c.2 h'⟩)⟩
          · refine ⟨.both, by
              rw [noZone_ok, r1.1, r1.2, r2.1, r2.2]
              exact Or.inr (Or.inr ⟨rfl, ⟨hrot, hno⟩, ⟨h', hq⟩⟩)⟩
        obtain ⟨w, hw⟩ := hw
        rw [hw]; exact ⟨_, rfl⟩
      · have hrot : (∃ k, k < i.n2.length ∧ ¬ FreqOk i k) := ⟨0, hpos, h 0⟩
        have hno : ¬ ∃ k, FreqOk i k := by rintro ⟨k, hk⟩; exact h k hk
        have hw : ∃ w, noZoneWarn (indCheck i) (rotCheck i) = .ok w := by
          by_cases hq : ∃ k, RotOk i k
          · refine ⟨.individual, by
              rw [noZone_ok, r1.1, r1.2, r2.1, r2.2]
              exact Or.inl ⟨rfl, ⟨hrot, hno⟩, fun c => c.2 hq, fun c => c.2 h'⟩⟩
          · refine ⟨.both, by
              rw [noZone_ok, r1.1, r1.2, r2.1, r2.2]
              exact Or.inr (Or.inr ⟨rfl, ⟨h', hq⟩, ⟨hrot, hno⟩⟩)⟩
        obtain ⟨w, hw⟩ := hw
        rw [hw]; exact ⟨_, rfl⟩

/-- **C99 is false**: a slow triad in a model where the approximation holds at every point is refused. -/
theorem C99_valid_everywhere_wrong (i : Inp) (hs : Slow i) (hn : i.n2 ≠ [])
    (h : ∀ k, k < i.n2.length → TarHolds i k) : masking i = .error .unclear := by
  have hpos : 0 < i.n2.length := List.length_pos_iff.2 hn
  have hc : ∀ x ∈ tarValid i, x = true := by
    intro x hx
    cases x with
    | true => rfl
    | false => obtain ⟨k, hk, h'⟩ := (mem_valid_false i).1 hx; exact absurd (h k hk) h'
  rw [masking_const i hs true hc]
  cases hw : noZoneWarn (indCheck i) (rotCheck i) with
  | error e =>
    unfold noZoneWarn at hw
    dsimp only at hw
    split_ifs at hw
    simpa using hw.symm
  | ok w =>
    rw [noZone_ok] at hw
    have a1 := (mem_ind i).1.2 ⟨0, (h 0 hpos).2⟩
    have a2 := (mem_rot i).1.2 ⟨0, (h 0 hpos).1⟩
    tauto

/-- **C99 is false** also for a star that is invalid everywhere because of one criterion while the other one holds
everywhere. -/
theorem C99_one_criterion_wrong (i : Inp) (hn : i.n2 ≠ [])
    (h : (∀ k, k < i.n2.length → RotOk i k) ∧ (∀ k, ¬ FreqOk i k) ∨
      (∀ k, k < i.n2.length → FreqOk i k) ∧ (∀ k, ¬ RotOk i k)) : ¬ ∃ r, masking i = .ok r := by
  rw [C99_outcome_partial i hn]
  have hpos : 0 < i.n2.length := List.length_pos_iff.2 hn
  rintro ⟨_, ⟨⟨k, hk⟩, _⟩ | ⟨h1, k, hk, h2⟩ | ⟨h1, k, hk, h2⟩⟩
  · rcases h with ⟨_, h⟩ | ⟨_, h⟩
    · exact h k hk.2
    · exact h k hk.1
  · rcases h with ⟨h, _⟩ | ⟨h, _⟩
    · exact h1 0 (h 0 hpos)
    · exact h2 (h k hk)
  · rcases h with ⟨h, _⟩ | ⟨h, _⟩
    · exact h2 (h k hk)
    · exact h1 0 (h 0 hpos)

/-! ### Concrete cases -/

/-- A model with an invalid core, a valid zone, an invalid zone and a valid surface. -/
noncomputable def exInp : Inp := ⟨[0, 10000, -4, 10000], 1, 1, [1, 2, -3], [20, -30, 15]⟩

theorem sqrt_tenk : √(10000 : ℝ) = 100 := by
  rw [show (10000 : ℝ) = 100 ^ 2 by norm_num]; exact Real.sqrt_sq (by norm_num)

theorem ex_slow : Slow exInp := by
  intro q hq
  simp only [exInp, List.mem_cons, List.not_mem_nil, or_false] at hq
  rcases hq with rfl | rfl | rfl <;> norm_num

theorem ex_tenk (i : Inp) (k : ℕ) (h : i.n2[k]? = some 10000) (hr : i.rotRps = 1) (hc : i.conv = 1)
    (ho : i.omegas = [1, 2, -3]) : TarHolds i k := by
  refine ⟨⟨10000, h, by norm_num, by rw [hr, sqrt_tenk]; norm_num⟩, 10000, h, fun _ => by norm_num, ?_⟩
  rw [ho, hc, sqrt_tenk]
  intro w hw
  simp only [List.mem_cons, List.not_mem_nil, or_false] at hw
  rcases hw with rfl | rfl | rfl <;> norm_num

/-- The hypotheses of C98 are met. -/
example : Slow exInp ∧ (∃ k, TarHolds exInp k) ∧ ∃ k, k < exInp.n2.length ∧ ¬ TarHolds exInp k := by
  refine ⟨ex_slow, ⟨1, ex_tenk _ 1 rfl rfl rfl rfl⟩, 2, by simp [exInp], ?_⟩
  rintro ⟨⟨x, hx, h0, _⟩, _⟩
  simp [exInp] at hx
  subst hx
  norm_num at h0

/-- A model that is valid everywhere, as in `C99_valid_everywhere_wrong`. -/
example : ∃ i : Inp, Slow i ∧ i.n2 ≠ [] ∧ ∀ k, k < i.n2.length → TarHolds i k := by
  refine ⟨⟨[10000, 10000], 1, 1, [1, 2, -3], [20, -30, 15]⟩, ?_, by simp, ?_⟩
  · exact ex_slow
  · intro k hk
    refine ex_tenk _ k ?_ rfl rfl rfl
    simp only [List.length_cons, List.length_nil] at hk
    obtain rfl | rfl : k = 0 ∨ k = 1 := by omega
    all_goals rfl

end Verif.Tar
