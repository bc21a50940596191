import Verif.Tar.Adjust
/-! # Values of the adjusted profile -/
namespace Verif.Tar
open Finset
variable {K : Type} [Field K]

theorem mapM_some {α β : Type} (f : α → Option β) (g : α → β) : ∀ (l : List α), (∀ x ∈ l, f x = some (g x)) →
    l.mapM f = some (l.map g)
  | [], _ => by simp
  | x :: l, h => by
    rw [List.mapM_cons, h x (by simp), mapM_some f g l (fun y hy => h y (by simp [hy]))]
    rfl

theorem getD_some (y : List K) (k : ℕ) (h : k < y.length) : y[k]? = some (y.getD k 0) := by
  rw [List.getD_eq_getElem?_getD, List.getElem?_eq_getElem h]; rfl

/-- The contributions of the invalid zones. -/
def cons (v : List Bool) (y : List K) : List K := (runsF v).map (zc v.length y)

/-- The profile computed from the zones. -/
def prof (v : List Bool) (r : Res) (y : List K) : List K :=
  validLoop y ((cumsum (cons v y)).zip r.vMasks)
    (invalidLoop (cumsum (cons v y)) 0 (r.nMasks.zip ((runsF v).map fun p => y.getD p.1 0)) (y.map fun _ => (0 : K)))

theorem adjust_good (v : List Bool) (r : Res) (y : List K) (g : Good v r) (hy : y.length = v.length)
    (hne : runsF v ≠ []) :
    adjust r y = some { value := y.getD (v.length - 1) 0
                        adjusted := y.getD (v.length - 1) 0 - (cons v y).sum
                        contributions := cons v y
                        profile := prof v r y } := by
  have hb := runsF_bounds v
  have hpos : 0 < v.length := by
    cases h : runsF v with
    | nil => exact absurd h hne
    | cons p l => have := hb p (by rw [h]; simp); omega
  have h1 : r.nonIdx.mapM (fun z => contribution z y) = some (cons v y) := by
    rw [g.idx, mapM_some _ (fun z => y.getD z.2 0 - y.getD z.1 0), List.map_map]
    · rfl
    · intro x hx
      obtain ⟨p, hp, rfl⟩ := List.mem_map.1 hx
      have := hb p hp
      simp only [contribution]
      rw [getD_some y p.1 (by omega), getD_some y (min p.2 (v.length - 1)) (by omega)]
      rfl
  have h2 : r.nonIdx.mapM (fun z => y[z.1]?) = some ((runsF v).map fun p => y.getD p.1 0) := by
    rw [g.idx, mapM_some _ (fun z => y.getD z.1 0), List.map_map]
    · rfl
    · intro x hx
      obtain ⟨p, hp, rfl⟩ := List.mem_map.1 hx
      have := hb p hp
      exact getD_some y p.1 (by omega)
  have hcne : cons v y ≠ [] := by simpa [cons] using hne
  unfold adjust
  rw [h1]
  simp only [Option.bind_some]
  rw [h2]
  simp only [Option.bind_some]
  rw [List.getLast?_eq_getElem?, getD_some y _ (by omega), cumsum_last _ hcne, g.fully, hy]
  rfl

theorem adjusted_good (v : List Bool) (y : List K) (hne : v ≠ []) :
    y.getD (v.length - 1) 0 - (cons v y).sum = validPart v y (v.length - 1) := by
  have hpos : 0 < v.length := List.length_pos_iff.2 hne
  rw [parts v y _ (by omega), invalidPart_split v y (runsF v) [] (by simp) _ (by omega)
    (fun p hp => Or.inr ⟨rfl, (runsF_bounds v p hp).2⟩) (by simp)]
  rfl

theorem nMask_mem {v : List Bool} {r : Res} (g : Good v r) (m : Option Slice) (hm : m ∈ r.nMasks) :
    ∃ p, m.map (Slice.range v.length) = some p ∧ Zone v false p.1 p.2 := by
  have : m.map (Slice.range v.length) ∈ ranges v.length r.nMasks := List.mem_map.2 ⟨m, hm, rfl⟩
  rw [g.nm] at this
  obtain ⟨p, hp, he⟩ := List.mem_map.1 this
  exact ⟨p, he.symm, ((isZones_runsF v).2 p.1 p.2).1 hp⟩

theorem vMask_mem {v : List Bool} {r : Res} (g : Good v r) (m : Option Slice) (hm : m ∈ r.vMasks) :
    ∃ p, m.map (Slice.range v.length) = some p ∧ Zone v true p.1 p.2 := by
  have : m.map (Slice.range v.length) ∈ ranges v.length r.vMasks := List.mem_map.2 ⟨m, hm, rfl⟩
  rw [g.vm] at this
  obtain ⟨p, hp, he⟩ := List.mem_map.1 this
  exact ⟨p, he.symm, ((isZones_runs v).2 p.1 p.2).1 hp⟩

theorem nMask_not {v : List Bool} {r : Res} (g : Good v r) (m : Option Slice) (hm : m ∈ r.nMasks) (j : ℕ)
    (hj : v[j]? = some true) : sel v.length m j = false := by
  obtain ⟨p, he, hz⟩ := nMask_mem g m hm
  rw [sel_range _ _ p he]
  by_contra hc
  have hc : p.1 ≤ j ∧ j < p.2 := by simpa using hc
  have := hz.2.2.1 j hc.1 hc.2
  rw [this] at hj; simp at hj

theorem vMask_not {v : List Bool} {r : Res} (g : Good v r) (m : Option Slice) (hm : m ∈ r.vMasks) (j : ℕ)
    (hj : v[j]? = some false) : sel v.length m j = false := by
  obtain ⟨p, he, hz⟩ := vMask_mem g m hm
  rw [sel_range _ _ p he]
  by_contra hc
  have hc : p.1 ≤ j ∧ j < p.2 := by simpa using hc
  have := hz.2.2.1 j hc.1 hc.2
  rw [this] at hj; simp at hj

/-- Every index lies in a run of its value. -/
theorem exists_run (v : List Bool) (j : ℕ) (hj : v[j]? = some true) :
    ∃ l1 p l2, runs v = l1 ++ p :: l2 ∧ p.1 ≤ j ∧ j < p.2 := by
  have h := runs_sum (K := ℚ) v (fun i => if i = j then 1 else 0)
  have hlt : j < v.length := (List.getElem?_eq_some_iff.1 hj).1
  have hr : (∑ i ∈ range v.length, if v[i]? = some true then (if i = j then (1 : ℚ) else 0) else 0) = 1 := by
    rw [Finset.sum_eq_single j]
    · simp [hj]
    · intro i _ hi; simp [hi]
    · intro hn; rw [Finset.mem_range] at hn; exact absurd hlt hn
  rw [hr] at h
  by_contra hc
  have hz : ((runs v).map fun p => ∑ i ∈ Ico p.1 p.2, if i = j then (1 : ℚ) else 0).sum = 0 := by
    refine List.sum_eq_zero fun x hx => ?_
    obtain ⟨p, hp, rfl⟩ := List.mem_map.1 hx
    refine Finset.sum_eq_zero fun i hi => ?_
    rw [Finset.mem_Ico] at hi
    rw [if_neg]
    rintro rfl
    obtain ⟨l1, l2, he⟩ := List.append_of_mem hp
    exact hc ⟨l1, p, l2, he, hi⟩
  rw [hz] at h
  simp at h

theorem exists_runF (v : List Bool) (j : ℕ) (hj : v[j]? = some false) :
    ∃ l1 p l2, runsF v = l1 ++ p :: l2 ∧ p.1 ≤ j ∧ j < p.2 := by
  refine exists_run _ j ?_
  rw [List.getElem?_map, hj]; rfl

theorem zeros_get (y : List K) (j : ℕ) (h : j < y.length) : (y.map fun _ => (0 : K))[j]? = some 0 := by
  rw [List.getElem?_map, List.getElem?_eq_getElem h]; rfl

theorem map_some_split {f : Option Slice → Option (ℕ × ℕ)} {ms : List (Option Slice)} {l1 l2 : List (ℕ × ℕ)}
    {p : ℕ × ℕ} (h : ms.map f = (l1 ++ p :: l2).map some) :
    ∃ m1 m m2, ms = m1 ++ m :: m2 ∧ m1.length = l1.length ∧ m2.length = l2.length ∧ f m = some p := by
  rw [List.map_append, List.map_eq_append_iff] at h
  obtain ⟨m1, m', rfl, h1, h2⟩ := h
  rw [List.map_cons, List.map_eq_cons_iff] at h2
  obtain ⟨m, m2, rfl, h3, h4⟩ := h2
  refine ⟨m1, m, m2, rfl, ?_, ?_, h3⟩
  · simpa using congrArg List.length h1
  · simpa using congrArg List.length h4

/-- Later masks of a sorted list do not select an index of an earlier one. -/
theorem later_not {v : List Bool} {c : Bool} {z : List (ℕ × ℕ)} (hz : IsZones v c z) {ms : List (Option Slice)}
    {m1 m2 : List (Option Slice)} {m : Option Slice} {l1 l2 : List (ℕ × ℕ)} {p : ℕ × ℕ} (he : z = l1 ++ p :: l2)
    (hm : ranges v.length ms = z.map some) (hms : ms = m1 ++ m :: m2) (hl : m1.length = l1.length) (j : ℕ)
    (hj : j < p.2) : ∀ x ∈ m2, sel v.length x j = false := by
  subst he hms
  have h : ranges v.length m2 = l2.map some := by
    simp only [ranges, List.map_append, List.map_cons] at hm
    have := List.append_inj hm (by simp [hl])
    exact (List.cons_eq_cons.1 this.2).2
  intro x hx
  have hx' : x.map (Slice.range v.length) ∈ ranges v.length m2 := List.mem_map.2 ⟨x, hx, rfl⟩
  rw [h] at hx'
  obtain ⟨q, hq, hqe⟩ := List.mem_map.1 hx'
  rw [sel_range _ _ q hqe.symm]
  have hs := hz.1
  rw [List.pairwise_append] at hs
  have := (List.pairwise_cons.1 hs.2.1).1 q hq
  simp only [decide_eq_false_iff_not, not_and, not_lt]
  intro hle; omega

theorem cumsum_take (l1 l2 : List K) (x : K) :
    (cumsum (l1 ++ x :: l2)).getD l1.length 0 = l1.sum + x := by
  rw [List.getD_eq_getElem?_getD, cumsum_get _ _ (by simp)]
  rw [show l1.length + 1 = (l1 ++ [x]).length by simp,
    show l1 ++ x :: l2 = (l1 ++ [x]) ++ l2 by simp, List.take_left]
  simp

/-- At the points of an invalid zone the profile holds what was accumulated over the valid intervals. -/
theorem prof_invalid (v : List Bool) (r : Res) (y : List K) (g : Good v r) (hy : y.length = v.length) (j : ℕ)
    (hj : v[j]? = some false) : (prof v r y)[j]? = some (validPart v y j) := by
  have hlt : j < v.length := (List.getElem?_eq_some_iff.1 hj).1
  obtain ⟨l1, p, l2, he, hp1, hp2⟩ := exists_runF v j hj
  have hz : Zone v false p.1 p.2 := ((isZones_runsF v).2 p.1 p.2).1 (by rw [he]; simp)
  have hm := g.nm
  rw [he] at hm
  obtain ⟨m1, m, m2, hms, hl1, hl2, hmp⟩ := map_some_split hm
  unfold prof
  rw [validLoop_none]
  · have hzip : r.nMasks.zip ((runsF v).map fun p => y.getD p.1 0)
        = m1.zip (l1.map fun p => y.getD p.1 0) ++
          (m, y.getD p.1 0) :: m2.zip (l2.map fun p => y.getD p.1 0) := by
      rw [hms, he, List.map_append, List.map_cons, List.zip_append (by simp [hl1])]
      rfl
    rw [hzip, invalidLoop_hit]
    · have hval : (if 0 + (m1.zip (l1.map fun p => y.getD p.1 0)).length > 0 then
          y.getD p.1 0 - (cumsum (cons v y)).getD (0 + (m1.zip (l1.map fun p => y.getD p.1 0)).length - 1) 0
          else y.getD p.1 0) = y.getD p.1 0 - (l1.map (zc v.length y)).sum := by
        have hlen : (m1.zip (l1.map fun p => y.getD p.1 0)).length = l1.length := by simp [hl1]
        rw [hlen, Nat.zero_add]
        rcases List.eq_nil_or_concat l1 with h | ⟨t, x, h⟩
        · subst h; simp
        · subst h
          simp only [List.concat_eq_append] at he ⊢
          simp only [List.length_append, List.length_singleton, Nat.add_sub_cancel]
          rw [if_pos (by omega), cons, he, List.map_append, List.map_append, List.append_assoc]
          simp only [List.map_cons, List.map_nil, List.cons_append, List.nil_append]
          have := cumsum_take (t.map (zc v.length y)) (zc v.length y p :: l2.map (zc v.length y)) (zc v.length y x)
          rw [List.length_map] at this
          rw [this]
          simp
      rw [hval]
      congr 1
      -- the accumulated part is constant in the zone
      have hs := (isZones_runsF v).1
      rw [he, List.pairwise_append] at hs
      have hsp := invalidPart_split v y l1 (p :: l2) he p.1 (by omega)
        (fun q hq => Or.inl (by have := hs.2.2 q hq p (by simp); omega))
        (fun q hq => by
          rcases List.mem_cons.1 hq with rfl | hq
          · exact le_rfl
          · have h1 := (List.pairwise_cons.1 hs.2.1).1 q hq
            have h2 := hz.1
            omega)
      rw [← hsp, ← parts v y p.1 (by omega)]
      unfold validPart
      congr 1
      rw [show j = p.1 + (j - p.1) by omega, Finset.sum_range_add]
      rw [Finset.sum_eq_zero (s := range (j - p.1)), add_zero]
      intro i hi
      rw [Finset.mem_range] at hi
      have := hz.2.2.1 (p.1 + i) (by omega) (by omega)
      simp [this]
    · rw [List.length_map, hy]; exact hlt
    · rw [List.length_map, hy, sel_range _ _ p hmp]; simpa using ⟨hp1, hp2⟩
    · intro x hx
      rw [List.length_map, hy]
      have hx2 : x.1 ∈ m2 := (List.of_mem_zip (show (x.1, x.2) ∈ _ from hx)).1
      exact later_not (isZones_runsF v) he g.nm hms hl1 j hp2 x.1 hx2
  · rw [invalidLoop_length, List.length_map, hy]; exact hlt
  · intro x hx
    rw [invalidLoop_length, List.length_map, hy]
    exact vMask_not g x.2 (List.of_mem_zip (show (x.1, x.2) ∈ _ from hx)).2 j hj

/-- At the points of valid zone number `k` the profile holds the original value minus the contributions of the first
`k + 1` invalid zones, if there are that many, and zero otherwise. -/
theorem prof_valid (v : List Bool) (r : Res) (y : List K) (g : Good v r) (hy : y.length = v.length) (j : ℕ)
    (hlt : j < v.length) (l1 l2 : List (ℕ × ℕ)) (p : ℕ × ℕ) (he : runs v = l1 ++ p :: l2) (hp1 : p.1 ≤ j)
    (hp2 : j < p.2) :
    (prof v r y)[j]? = some (if l1.length < (runsF v).length then
      y.getD j 0 - ((cons v y).take (l1.length + 1)).sum else 0) := by
  have hz : Zone v true p.1 p.2 := ((isZones_runs v).2 p.1 p.2).1 (by rw [he]; simp)
  have hj : v[j]? = some true := hz.2.2.1 j hp1 hp2
  have hm := g.vm
  rw [he] at hm
  obtain ⟨m1, m, m2, hms, hl1, hl2, hmp⟩ := map_some_split hm
  have hclen : (cumsum (cons v y)).length = (runsF v).length := by
    rw [cumsum, cumsumFrom_length, cons, List.length_map]
  have hl0 : j < (invalidLoop (cumsum (cons v y)) 0 (r.nMasks.zip ((runsF v).map fun p => y.getD p.1 0))
      (y.map fun _ => (0 : K))).length := by
    rw [invalidLoop_length, List.length_map, hy]; exact hlt
  unfold prof
  split_ifs with hk
  · obtain ⟨s1, s, s2, hs, hs1⟩ : ∃ s1 s s2, cumsum (cons v y) = s1 ++ s :: s2 ∧ s1.length = l1.length := by
      have hk' : l1.length < (cumsum (cons v y)).length := by rw [hclen]; exact hk
      refine ⟨(cumsum (cons v y)).take l1.length, (cumsum (cons v y))[l1.length],
        (cumsum (cons v y)).drop (l1.length + 1), ?_, ?_⟩
      · rw [List.getElem_cons_drop, List.take_append_drop]
      · rw [List.length_take]; omega
    have hsv : s = ((cons v y).take (l1.length + 1)).sum := by
      have h1 : (cumsum (cons v y))[l1.length]? = some s := by
        rw [hs, ← hs1]; simp
      rw [cumsum_get _ _ (by rw [cons, List.length_map]; exact hk)] at h1
      simpa using h1.symm
    have hzip : (cumsum (cons v y)).zip r.vMasks = s1.zip m1 ++ (s, m) :: s2.zip m2 := by
      rw [hs, hms, List.zip_append (by omega)]
      rfl
    rw [hzip, validLoop_hit _ _ _ _ _ _ _ hl0]
    · rw [hsv]
    · rw [invalidLoop_length, List.length_map, hy, sel_range _ _ p hmp]; simpa using ⟨hp1, hp2⟩
    · intro x hx
      rw [invalidLoop_length, List.length_map, hy]
      exact later_not (isZones_runs v) he g.vm hms hl1 j hp2 x.2
        (List.of_mem_zip (show (x.1, x.2) ∈ _ from hx)).2
  · have hzip : (cumsum (cons v y)).zip r.vMasks
        = (cumsum (cons v y)).zip (m1.take (runsF v).length) := by
      rw [List.zip_eq_zip_take_min, hms, hclen]
      rw [List.length_append, Nat.min_eq_left (by simp; omega)]
      rw [List.take_append_of_le_length (by omega)]
      rw [List.take_of_length_le (by omega)]
    rw [hzip, validLoop_none _ _ _ _ hl0]
    · rw [invalidLoop_none]
      · exact zeros_get y j (by omega)
      · rw [List.length_map, hy]; exact hlt
      · intro x hx
        rw [List.length_map, hy]
        exact nMask_not g x.1 (List.of_mem_zip (show (x.1, x.2) ∈ _ from hx)).1 j hj
    · intro x hx
      rw [invalidLoop_length, List.length_map, hy]
      have hx1 : x.2 ∈ m1 := List.mem_of_mem_take (List.of_mem_zip (show (x.1, x.2) ∈ _ from hx)).2
      -- an earlier mask ends before `p`
      have hm1 : ranges v.length m1 = l1.map some := by
        rw [hms] at hm
        simp only [ranges, List.map_append, List.map_cons] at hm
        exact (List.append_inj hm (by simp [hl1])).1
      have hx' : x.2.map (Slice.range v.length) ∈ ranges v.length m1 := List.mem_map.2 ⟨x.2, hx1, rfl⟩
      rw [hm1] at hx'
      obtain ⟨q, hq, hqe⟩ := List.mem_map.1 hx'
      rw [sel_range _ _ q hqe.symm]
      have hso := (isZones_runs v).1
      rw [he, List.pairwise_append] at hso
      have := hso.2.2 q hq p (by simp)
      simp only [decide_eq_false_iff_not, not_and, not_lt]
      intro _; omega

end Verif.Tar
