import Verif.Tar.Claims
import Verif.Tar.Profile
/-!
# C100, C101: the adjusted coupling coefficient and its profile
-/
namespace Verif.Tar
open Finset
variable {K : Type} [Field K]

theorem inv_take (v : List Bool) (y : List K) (j m : ℕ) (hj : j < v.length)
    (hm : m ≤ (runsF v).length) (hlo : ∀ k q, m = k + 1 → (runsF v)[k]? = some q → q.2 ≤ j)
    (hhi : ∀ q, (runsF v)[m]? = some q → j ≤ q.1) :
    invalidPart v y j = ((cons v y).take m).sum := by
  have hs := (isZones_runsF v).1
  have hb := runsF_bounds v
  rw [List.pairwise_iff_getElem] at hs
  rw [cons, ← List.map_take]
  refine invalidPart_split v y ((runsF v).take m) ((runsF v).drop m) (List.take_append_drop _ _).symm j hj ?_ ?_
  · intro p hp
    left
    obtain ⟨a, ha, rfl⟩ := List.mem_iff_getElem.1 hp
    rw [List.length_take] at ha
    rw [List.getElem_take]
    obtain ⟨k, rfl⟩ : ∃ k, m = k + 1 := ⟨m - 1, by omega⟩
    rcases Nat.lt_or_ge k (runsF v).length with h | h
    · have h1 := hlo k _ rfl (List.getElem?_eq_getElem h)
      rcases Nat.lt_or_ge a k with h' | h'
      · have h2 := hs a k (by omega) h h'
        have h3 := (hb _ (List.getElem_mem h)).1
        omega
      · obtain rfl : a = k := by omega
        exact h1
    · omega
  · intro p hp
    obtain ⟨a, ha, rfl⟩ := List.mem_iff_getElem.1 hp
    rw [List.length_drop] at ha
    rw [List.getElem_drop]
    have h : m < (runsF v).length := by omega
    have h1 := hhi _ (List.getElem?_eq_getElem h)
    rcases Nat.eq_zero_or_pos a with h' | h'
    · subst h'; exact h1
    · have h2 := hs m (m + a) h (by omega) (by omega)
      have h3 := (hb _ (List.getElem_mem h)).1
      omega

/-- The two shapes of a successful result. -/
theorem masking_cases (i : Inp) (r : Res) (h : masking i = .ok r) :
    (Good (tarValid i) r ∧ (∃ k, TarHolds i k) ∧ ∃ k, k < i.n2.length ∧ ¬ TarHolds i k) ∨
    (r.fully = true ∧ r.nonIdx = [(0, i.n2.length - 1)] ∧ (∀ k, ¬ TarHolds i k) ∧ 0 < i.n2.length) := by
  have hs : Slow i := by
    rw [← slow_iff]
    by_contra hc
    rw [Bool.not_eq_true] at hc
    unfold masking zonesOf at h
    rw [hc] at h
    simp at h
  by_cases h1 : ∃ k, TarHolds i k
  · by_cases h2 : ∃ k, k < i.n2.length ∧ ¬ TarHolds i k
    · obtain ⟨r', hr', g⟩ := masking_good i hs h1 h2
      rw [hr'] at h
      obtain rfl : r' = r := by simpa using h
      exact Or.inl ⟨g, h1, h2⟩
    · have hn : i.n2 ≠ [] := by
        rintro hn
        obtain ⟨k, hk⟩ := h1
        have := hk.lt
        rw [hn] at this; simp at this
      rw [C99_valid_everywhere_wrong i hs hn (fun k hk => by by_contra hc; exact h2 ⟨k, hk, hc⟩)] at h
      simp at h
  · right
    have hc : ∀ x ∈ tarValid i, x = false := by
      intro x hx
      cases x with
      | false => rfl
      | true => exact absurd ((mem_valid_true i).1 hx) h1
    rw [masking_const i hs false hc] at h
    cases hw : noZoneWarn (indCheck i) (rotCheck i) with
    | error e => rw [hw] at h; simp at h
    | ok w =>
      rw [hw] at h
      have hr : r = _ := (Except.ok.inj h).symm
      rw [hr]
      refine ⟨rfl, rfl, fun k hk => h1 ⟨k, hk⟩, ?_⟩
      rw [noZone_ok] at hw
      rcases hw with ⟨_, ⟨a, _⟩, _⟩ | ⟨_, ⟨a, _⟩, _⟩ | ⟨_, ⟨a, _⟩, _⟩
      · obtain ⟨k, hk, _⟩ := (mem_ind i).2.1 a; omega
      · obtain ⟨k, hk, _⟩ := (mem_rot i).2.1 a; omega
      · obtain ⟨k, hk, _⟩ := (mem_rot i).2.1 a; omega

open Classical in
theorem validPart_tar (i : Inp) (y : List K) (j : ℕ) :
    validPart (tarValid i) y j
      = y.getD 0 0 + ∑ k ∈ range j, if TarHolds i k then y.getD (k + 1) 0 - y.getD k 0 else 0 := by
  unfold validPart incr
  congr 1
  refine Finset.sum_congr rfl fun k _ => ?_
  by_cases hk : k < i.n2.length
  · rw [tarValid_get i k hk]
    by_cases h : TarHolds i k <;> simp [h]
  · have h : ¬ TarHolds i k := fun h => hk h.lt
    rw [List.getElem?_eq_none (by rw [tarValid_length]; omega)]
    simp [h]

theorem runsF_ne (i : Inp) (h : ∃ k, k < i.n2.length ∧ ¬ TarHolds i k) : runsF (tarValid i) ≠ [] := by
  classical
  obtain ⟨k, hk, hn⟩ := h
  have := tarValid_get i k hk
  simp only [hn, decide_false] at this
  obtain ⟨l1, p, l2, he, _⟩ := exists_runF _ k this
  rw [he]; simp

open Classical in
/-- **C100.**  Whenever masking information is returned, the adjusted coupling coefficient is the value at the first
grid point plus the increments of the profile over exactly those radial intervals whose inner end point fulfils the
validity criterion, and what is reported per invalid zone adds up to the difference with the unadjusted value. -/
theorem C100_adjusted (i : Inp) (r : Res) (y : List K) (hr : masking i = .ok r) (hy : y.length = i.n2.length) :
    ∃ o, adjust r y = some o ∧ o.value = y.getD (i.n2.length - 1) 0 ∧
      o.adjusted = y.getD 0 0 +
        ∑ k ∈ range (i.n2.length - 1), (if TarHolds i k then y.getD (k + 1) 0 - y.getD k 0 else 0) ∧
      o.value = o.adjusted + o.contributions.sum := by
  rcases masking_cases i r hr with ⟨g, ht, hf⟩ | ⟨h1, h2, h3, h4⟩
  · refine ⟨_, adjust_good _ r y g (by rw [hy, tarValid_length]) (runsF_ne i hf), by rw [tarValid_length], ?_, ?_⟩
    · have hne : tarValid i ≠ [] := by
        intro h
        have := tarValid_length i
        obtain ⟨k, hk, _⟩ := hf
        rw [h] at this; simp at this; omega
      rw [adjusted_good _ _ hne, validPart_tar, tarValid_length]
    · simp
  · refine ⟨{ value := y.getD (i.n2.length - 1) 0
              adjusted := y.getD (i.n2.length - 1) 0 - (0 + (y.getD (i.n2.length - 1) 0 - y.getD 0 0))
              contributions := [y.getD (i.n2.length - 1) 0 - y.getD 0 0]
              profile := y.map fun _ => 0 }, ?_, rfl, ?_, ?_⟩
    · unfold adjust
      rw [h2, h1]
      simp only [List.mapM_cons, List.mapM_nil, contribution]
      rw [getD_some y 0 (by omega), getD_some y (i.n2.length - 1) (by omega), List.getLast?_eq_getElem?, hy,
        getD_some y (i.n2.length - 1) (by omega)]
      rfl
    · rw [Finset.sum_eq_zero (fun k _ => by rw [if_neg (h3 k)])]
      ring
    · simp

open Classical in
/-- **C100**, per zone: the reported contributions are, from the centre outwards and one per maximal invalid zone, the
change of the profile from the first point of the zone to the first point after it (the last grid point at the
surface). -/
theorem C100_contributions (i : Inp) (r : Res) (y : List K) (hr : masking i = .ok r)
    (hy : y.length = i.n2.length) :
    ∃ o zn, adjust r y = some o ∧ IsZones (tarValid i) false zn ∧
      o.contributions = zn.map fun z => y.getD (min z.2 (i.n2.length - 1)) 0 - y.getD z.1 0 := by
  rcases masking_cases i r hr with ⟨g, ht, hf⟩ | ⟨h1, h2, h3, h4⟩
  · refine ⟨_, runsF (tarValid i), adjust_good _ r y g (by rw [hy, tarValid_length]) (runsF_ne i hf),
      isZones_runsF _, ?_⟩
    simp only [cons, tarValid_length]
    rfl
  · obtain ⟨o, ho, _⟩ := C100_adjusted i r y hr hy
    refine ⟨o, [(0, i.n2.length)], ho, ⟨by simp, ?_⟩, ?_⟩
    · have hall : ∀ k, k < i.n2.length → (tarValid i)[k]? = some false := by
        intro k hk; rw [tarValid_get i k hk]; simp [h3 k]
      intro a b
      simp only [List.mem_singleton, Prod.mk.injEq]
      constructor
      · rintro ⟨rfl, rfl⟩
        exact ⟨h4, by rw [tarValid_length], fun k _ hk => hall k hk, Or.inl rfl, Or.inl (by rw [tarValid_length])⟩
      · rintro ⟨ha, hb, _, hc, hd⟩
        rw [tarValid_length] at hb hd
        refine ⟨?_, ?_⟩
        · rcases hc with hc | hc
          · exact hc
          · rw [hall _ (by omega)] at hc; simp at hc
        · rcases hd with hd | hd
          · exact hd
          · by_contra hne
            rw [hall _ (by omega)] at hd; simp at hd
    · unfold adjust at ho
      rw [h2, h1] at ho
      simp only [List.mapM_cons, List.mapM_nil, contribution] at ho
      rw [getD_some y 0 (by omega), getD_some y (i.n2.length - 1) (by omega), List.getLast?_eq_getElem?, hy,
        getD_some y (i.n2.length - 1) (by omega)] at ho
      have ho' := Option.some.inj ho
      rw [← ho']
      simp

/-- **C100**, term by term: the adjusted values of several terms add up to the adjusted value of their sum. -/
theorem C100_terms (i : Inp) (r : Res) (ys : List (List K)) (y : List K) (hr : masking i = .ok r)
    (hys : ∀ z ∈ ys, z.length = i.n2.length) (hy : y.length = i.n2.length)
    (hsum : ∀ k, y.getD k 0 = (ys.map fun z => z.getD k 0).sum) :
    ∃ os o, adjustAll r ys = some os ∧ adjust r y = some o ∧
      (os.map fun a => a.value).sum = o.value ∧ (os.map fun a => a.adjusted).sum = o.adjusted := by
  classical
  obtain ⟨o, ho, hv, ha, _⟩ := C100_adjusted i r y hr hy
  have hex : ∀ z : List K, ∃ o : Adj K, z ∈ ys → adjust r z = some o ∧
      o.value = z.getD (i.n2.length - 1) 0 ∧
      o.adjusted = z.getD 0 0 +
        ∑ k ∈ range (i.n2.length - 1), (if TarHolds i k then z.getD (k + 1) 0 - z.getD k 0 else 0) := by
    intro z
    by_cases hz : z ∈ ys
    · obtain ⟨o, h1, h2, h3, _⟩ := C100_adjusted i r z hr (hys z hz)
      exact ⟨o, fun _ => ⟨h1, h2, h3⟩⟩
    · exact ⟨⟨0, 0, [], []⟩, fun h => absurd h hz⟩
  choose f hf using hex
  refine ⟨ys.map f, o, mapM_some _ f ys (fun z hz => (hf z hz).1), ho, ?_, ?_⟩
  · rw [hv, hsum, List.map_map]
    congr 1
    exact List.map_congr_left fun z hz => (hf z hz).2.1
  · rw [ha, List.map_map]
    simp only [Function.comp_def]
    rw [List.map_congr_left (g := fun z : List K => z.getD 0 0 +
        ∑ k ∈ range (i.n2.length - 1), (if TarHolds i k then z.getD (k + 1) 0 - z.getD k 0 else 0))
      (fun z hz => (hf z hz).2.2)]
    simp only [hsum]
    generalize i.n2.length - 1 = m
    clear hf ho hv ha hsum hys
    induction ys with
    | nil => simp
    | cons z ys ih =>
      simp only [List.map_cons, List.sum_cons]
      rw [ih]
      rw [add_add_add_comm, ← Finset.sum_add_distrib]
      congr 1
      refine Finset.sum_congr rfl fun k _ => ?_
      split_ifs
      · ring
      · ring

/-! ### C101: the adjusted profile -/

theorem zip_get {A B : List ℕ} {k : ℕ} {p : ℕ × ℕ} (h : (A.zip B)[k]? = some p) :
    A[k]? = some p.1 ∧ B[k]? = some p.2 := by
  rw [List.getElem?_zip_eq_some] at h
  exact h

/-- With an invalid core the profile is right at every valid point too. -/
theorem prof_invalid_core (v : List Bool) (r : Res) (y : List K) (g : Good v r) (hy : y.length = v.length)
    (hcore : v.head? = some false) (j : ℕ) (hj : v[j]? = some true) :
    (prof v r y)[j]? = some (validPart v y j) := by
  have hlt : j < v.length := (List.getElem?_eq_some_iff.1 hj).1
  obtain ⟨l1, p, l2, he, hp1, hp2⟩ := exists_run v j hj
  rw [prof_valid v r y g hy j hlt l1 l2 p he hp1 hp2]
  obtain ⟨e1, z1⟩ := lo_hi v
  obtain ⟨e2, z2⟩ := lo_hi (v.map (!·))
  rw [show runs (v.map (!·)) = runsF v from rfl] at z2
  unfold lo hi at z2 e2
  rw [starts_not, ends_not, not_head, not_last, List.length_map, hcore] at z2 e2
  unfold lo hi at z1 e1
  rw [hcore] at z1 e1
  simp only [Option.some.injEq, Bool.false_eq_true, if_false, List.nil_append, Option.map_some,
    Bool.not_false, if_true, List.singleton_append] at z1 z2 e1 e2
  have hk : (runs v)[l1.length]? = some p := by rw [he]; simp
  rw [z1] at hk
  obtain ⟨k1, k2⟩ := zip_get hk
  have hkS : l1.length < (starts v).length := (List.getElem?_eq_some_iff.1 k1).1
  have hkF : l1.length < (runsF v).length := by
    rw [z2, List.length_zip, e2, Nat.min_self]
    simp; omega
  rw [if_pos hkF, parts v y j hlt.le]
  congr 2
  symm
  refine inv_take v y j (l1.length + 1) hlt (by omega) ?_ ?_
  · intro k q hkq hq
    obtain rfl : k = l1.length := by omega
    rw [z2] at hq
    obtain ⟨_, q2⟩ := zip_get hq
    rw [List.getElem?_append_left hkS, k1] at q2
    have : p.1 = q.2 := by simpa using q2
    omega
  · intro q hq
    rw [z2] at hq
    obtain ⟨q1, _⟩ := zip_get hq
    rw [List.getElem?_cons_succ] at q1
    have hkE : l1.length < ((ends v).map (· + 1)).length := (List.getElem?_eq_some_iff.1 q1).1
    rw [List.getElem?_append_left hkE, q1] at k2
    have : q.1 = p.2 := by simpa using k2
    omega

open Classical in
/-- **C101.**  Full statement: the adjusted profile holds at every grid point the value at the first point plus the
increments over the valid intervals up to there.  Proved for models whose core is invalid and not entirely invalid,
and at the invalid points of every model.  Missing because false: the valid points of models with a valid core
(`C101_valid_core_wrong`, `C101_valid_surface_wrong`). -/
theorem C101_profile_partial (i : Inp) (r : Res) (y : List K) (hr : masking i = .ok r)
    (hy : y.length = i.n2.length) (hv : ∃ k, TarHolds i k) (j : ℕ) (hj : j < i.n2.length)
    (hcase : ¬ TarHolds i 0 ∨ ¬ TarHolds i j) :
    ∃ o, adjust r y = some o ∧ o.profile[j]? = some (y.getD 0 0 +
      ∑ k ∈ range j, (if TarHolds i k then y.getD (k + 1) 0 - y.getD k 0 else 0)) := by
  rcases masking_cases i r hr with ⟨g, ht, hf⟩ | ⟨_, _, h3, _⟩
  swap
  · obtain ⟨k, hk⟩ := hv; exact absurd hk (h3 k)
  refine ⟨_, adjust_good _ r y g (by rw [hy, tarValid_length]) (runsF_ne i hf), ?_⟩
  rw [← validPart_tar]
  have hget := tarValid_get i j hj
  by_cases hh : TarHolds i j
  · have h0 : ¬ TarHolds i 0 := by tauto
    refine prof_invalid_core _ r y g (by rw [hy, tarValid_length]) ?_ j (by rw [hget]; simp [hh])
    rw [List.head?_eq_getElem?, tarValid_get i 0 (by omega)]
    simp [h0]
  · exact prof_invalid _ r y g (by rw [hy, tarValid_length]) j (by rw [hget]; simp [hh])

/-- The last point of the profile is the adjusted coefficient when the core is invalid or the surface is. -/
theorem C101_end_partial (i : Inp) (r : Res) (y : List K) (hr : masking i = .ok r) (hy : y.length = i.n2.length)
    (hv : ∃ k, TarHolds i k) (hcase : ¬ TarHolds i 0 ∨ ¬ TarHolds i (i.n2.length - 1)) :
    ∃ o, adjust r y = some o ∧ o.profile.getLast? = some o.adjusted := by
  classical
  have hpos : 0 < i.n2.length := by obtain ⟨k, hk⟩ := hv; have := hk.lt; omega
  obtain ⟨o, ho, hp⟩ := C101_profile_partial i r y hr hy hv _ (show i.n2.length - 1 < i.n2.length by omega) hcase
  obtain ⟨o', ho', _, ha, _⟩ := C100_adjusted i r y hr hy
  rw [ho] at ho'
  obtain rfl : o = o' := by simpa using ho'
  refine ⟨o, ho, ?_⟩
  rw [ha, ← hp, List.getLast?_eq_getElem?]
  congr 1
  rcases masking_cases i r hr with ⟨g, _, hf⟩ | ⟨_, _, h3, _⟩
  · rw [adjust_good _ r y g (by rw [hy, tarValid_length]) (runsF_ne i hf)] at ho
    rw [← Option.some.inj ho]
    simp only [prof, validLoop_length, invalidLoop_length, List.length_map, hy]
  · obtain ⟨k, hk⟩ := hv; exact absurd hk (h3 k)

/-- **C101 is false** for a valid core: every point of the core, which no invalid zone precedes, is lowered by the
contribution of the first invalid zone. -/
theorem C101_valid_core_wrong (i : Inp) (r : Res) (y : List K) (hr : masking i = .ok r)
    (hy : y.length = i.n2.length) (j : ℕ) (hj : j < i.n2.length) (hcore : ∀ k, k ≤ j → TarHolds i k) :
    ∃ o c, adjust r y = some o ∧ o.contributions.head? = some c ∧
      o.profile[j]? = some (y.getD j 0 - c) := by
  classical
  rcases masking_cases i r hr with ⟨g, ht, hf⟩ | ⟨_, _, h3, _⟩
  swap
  · exact absurd (hcore 0 (by omega)) (h3 0)
  have hne := runsF_ne i hf
  obtain ⟨q, Q, hQ⟩ : ∃ q Q, runsF (tarValid i) = q :: Q := by
    cases h : runsF (tarValid i) with
    | nil => exact absurd h hne
    | cons q Q => exact ⟨q, Q, rfl⟩
  refine ⟨_, zc (tarValid i).length y q, adjust_good _ r y g (by rw [hy, tarValid_length]) hne, ?_, ?_⟩
  · simp [cons, hQ]
  · have hget := tarValid_get i j hj
    simp only [hcore j le_rfl, decide_true] at hget
    obtain ⟨l1, p, l2, he, hp1, hp2⟩ := exists_run _ j hget
    have hz : Zone (tarValid i) true p.1 p.2 := ((isZones_runs _).2 p.1 p.2).1 (by rw [he]; simp)
    have hp0 : p.1 = 0 := by
      rcases hz.2.2.2.1 with h | h
      · exact h
      · by_contra hc
        rw [tarValid_get i (p.1 - 1) (by omega)] at h
        simp only [hcore (p.1 - 1) (by omega), decide_true] at h
        simp at h
    have hl1 : l1 = [] := by
      cases hl : l1 with
      | nil => rfl
      | cons a t =>
        have hs := (isZones_runs (tarValid i)).1
        rw [he, List.pairwise_append] at hs
        have := hs.2.2 a (by rw [hl]; simp) p (by simp)
        omega
    rw [prof_valid _ r y g (by rw [hy, tarValid_length]) j (by rw [tarValid_length]; exact hj) l1 l2 p he hp1 hp2,
      hl1, hQ, cons, hQ]
    simp

/-- **C101 is false** for a valid core and a valid surface: the outermost valid zone is never written, so the profile
ends at zero whatever the coupling coefficient is. -/
theorem C101_valid_surface_wrong (i : Inp) (r : Res) (y : List K) (hr : masking i = .ok r)
    (hy : y.length = i.n2.length) (h0 : TarHolds i 0) (h1 : TarHolds i (i.n2.length - 1)) :
    ∃ o, adjust r y = some o ∧ o.profile.getLast? = some 0 := by
  classical
  rcases masking_cases i r hr with ⟨g, ht, hf⟩ | ⟨_, _, h3, _⟩
  swap
  · exact absurd h0 (h3 0)
  refine ⟨_, adjust_good _ r y g (by rw [hy, tarValid_length]) (runsF_ne i hf), ?_⟩
  have hn : 0 < i.n2.length := h0.lt
  have hget := tarValid_get i (i.n2.length - 1) (by omega)
  simp only [h1, decide_true] at hget
  have hhead : (tarValid i).head? = some true := by
    rw [List.head?_eq_getElem?, tarValid_get i 0 hn]; simp [h0]
  have hlast : (tarValid i).getLast? = some true := by
    rw [List.getLast?_eq_getElem?, tarValid_length]; exact hget
  obtain ⟨l1, p, l2, he, hp1, hp2⟩ := exists_run _ _ hget
  have hpz : ∀ q ∈ runs (tarValid i), q.2 ≤ i.n2.length := by
    intro q hq
    have := ((isZones_runs (tarValid i)).2 q.1 q.2).1 hq
    rw [← tarValid_length]; exact this.2.1
  have hpos := runs_pos (tarValid i)
  have hl2 : l2 = [] := by
    cases hl : l2 with
    | nil => rfl
    | cons a t =>
      have hs := (isZones_runs (tarValid i)).1
      rw [he, List.pairwise_append] at hs
      have h2 := (List.pairwise_cons.1 hs.2.1).1 a (by rw [hl]; simp)
      have h3 := hpz a (by rw [he, hl]; simp)
      have h4 := hpos a (by rw [he, hl]; simp)
      omega
  have hlen : (runsF (tarValid i)).length = l1.length := by
    obtain ⟨e1, z1⟩ := lo_hi (tarValid i)
    obtain ⟨e2, z2⟩ := lo_hi ((tarValid i).map (!·))
    rw [show runs ((tarValid i).map (!·)) = runsF (tarValid i) from rfl] at z2
    unfold lo hi at z2 e2
    rw [starts_not, ends_not, not_head, not_last, List.length_map, hhead, hlast] at z2 e2
    unfold lo hi at z1 e1
    rw [hhead, hlast] at z1 e1
    have h5 := congrArg List.length z1
    have h6 := congrArg List.length z2
    rw [he, hl2] at h5
    simp at h5 h6 e1 e2
    omega
  have := prof_valid _ r y g (by rw [hy, tarValid_length]) _ (by rw [tarValid_length]; omega) l1 l2 p he hp1 hp2
  rw [if_neg (by omega)] at this
  rw [← this, List.getLast?_eq_getElem?]
  simp only [prof, validLoop_length, invalidLoop_length, List.length_map, hy]

/-- A model with a valid core and a valid surface and a profile whose adjusted coefficient is not zero, as in the two
refutations. -/
example : ∃ (i : Inp) (r : Res) (y : List ℚ) (o : Adj ℚ), masking i = .ok r ∧ y.length = i.n2.length ∧
    TarHolds i 0 ∧ TarHolds i (i.n2.length - 1) ∧ adjust r y = some o ∧ o.adjusted = 4 ∧
    o.contributions.head? = some 4 := by
  let i : Inp := ⟨[10000, 0, 10000], 1, 1, [1, 2, -3], [20, -30, 15]⟩
  have h0 : TarHolds i 0 := ex_tenk i 0 rfl rfl rfl rfl
  have h2 : TarHolds i 2 := ex_tenk i 2 rfl rfl rfl rfl
  have h1 : ¬ TarHolds i 1 := by
    rintro ⟨⟨x, hx, _, h⟩, _⟩
    have hx : (0 : ℝ) = x := by simpa [i] using hx
    subst hx
    norm_num at h
  obtain ⟨r, hr, g⟩ := masking_good i ex_slow ⟨0, h0⟩ ⟨1, by simp [i], h1⟩
  obtain ⟨o, ho, hv, ha, hc⟩ := C100_adjusted (K := ℚ) i r [1, 4, 8] hr rfl
  refine ⟨i, r, [1, 4, 8], o, hr, rfl, h0, h2, ho, ?_, ?_⟩
  · rw [ha]
    show (1 : ℚ) + ∑ k ∈ range 2, _ = 4
    rw [Finset.sum_range_succ, Finset.sum_range_one]
    rw [if_pos h0, if_neg h1]
    norm_num
  · have hv : tarValid i = [true, false, true] := by
      refine List.ext_getElem? fun k => ?_
      rcases Nat.lt_or_ge k 3 with hk | hk
      · rw [tarValid_get i k hk]
        obtain rfl | rfl | rfl : k = 0 ∨ k = 1 ∨ k = 2 := by omega
        · simp [h0]
        · simp [h1]
        · simp [h2]
      · rw [List.getElem?_eq_none (by rw [tarValid_length]; exact hk), List.getElem?_eq_none (by simpa using hk)]
    rw [adjust_good _ r [1, 4, 8] g (by rw [hv]; rfl) (runsF_ne i ⟨1, by simp [i], h1⟩)] at ho
    rw [← Option.some.inj ho]
    simp only [cons, hv]
    simp [runsF, runs, shift, zc]
    norm_num

/-- A model with an invalid core as in `C101_profile_partial`. -/
example : ∃ (r : Res), masking exInp = .ok r ∧ (∃ k, TarHolds exInp k) ∧ ¬ TarHolds exInp 0 := by
  have h1 : ¬ TarHolds exInp 0 := by
    rintro ⟨⟨x, hx, _, h⟩, _⟩
    have hx : (0 : ℝ) = x := by simpa [exInp] using hx
    subst hx
    norm_num at h
    exact absurd h (not_lt.2 (by positivity))
  obtain ⟨r, hr, _⟩ := masking_good exInp ex_slow ⟨1, ex_tenk _ 1 rfl rfl rfl rfl⟩ ⟨0, by simp [exInp], h1⟩
  exact ⟨r, hr, ⟨1, ex_tenk _ 1 rfl rfl rfl rfl⟩, h1⟩

end Verif.Tar
