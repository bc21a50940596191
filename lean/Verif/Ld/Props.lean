import Verif.Ld.Lemmas
import Mathlib.Data.Rat.Defs
import Mathlib.Algebra.Order.Field.Rat
import Mathlib.Tactic.NormNum
import Mathlib.Tactic.Linarith
import Mathlib.Tactic.Ring
import Mathlib.Tactic.FieldSimp
/-!
# Properties C12, C13: limb-darkening functions

`ldCompute (mapperAfter hist) s paral o1 o2 kap res h` is the Python call
`compute(kap, res, s, threads, paral)` in memory `h` after earlier calls `hist`; `o1`, `o2` are the
orders in which the iterations of the two parallel loops execute.
-/
namespace Verif.Ld

section
variable {α : Type} [Add α] [Mul α] [Div α] [NatCast α]

/-- C12: with two different arrays the result is the Eddington law pointwise, the tail of a longer
result array and all other memory are unchanged; any string, history, mode and iteration order. -/
theorem C12_eddington_pointwise (hist : List String) (s : String) (paral : Bool) (o1 o2 : List Nat)
    (kap res : Nat) (hne : kap ≠ res) (h : Heap α) (hlen : (h kap).length ≤ (h res).length)
    (h1 : o1.Perm (List.range (h kap).length)) (h2 : o2.Perm (List.range (h kap).length)) :
    ∃ h', ldCompute (mapperAfter hist) s paral o1 o2 kap res h = some h' ∧
      (∀ r, r ≠ res → h' r = h r) ∧
      h' res = (h kap).map (fun m => ((1 : Nat) : α) + (((3 : Nat) : α) / ((2 : Nat) : α)) * m) ++
        (h res).drop (h kap).length := by
  unfold ldCompute compute
  rw [mapperIndex_zero]
  obtain ⟨g, g1, g2, g3, g4⟩ := branch_spec paral o1 (h kap).length kap res h1 h le_rfl hlen
  have gk : g kap = h kap := g2 kap hne
  obtain ⟨f, f1, f2, f3, f4⟩ := branch_spec paral o2 (h kap).length kap res h2 g (by rw [gk])
    (by rw [g3]; exact hlen)
  refine ⟨f, ?_, fun r hr => by rw [f2 r hr, g2 r hr], ?_⟩
  · simp only [optEddington, if_true, g1, Option.bind_eq_bind, Option.bind_some]; exact f1
  · apply List.ext_getElem?
    intro k
    rw [f4 k, gk]
    split
    · rename_i hk
      rw [List.getElem?_append_left (by simpa using hk)]
      rw [List.getElem?_map]; rfl
    · rename_i hk
      rw [List.getElem?_append_right (by simpa using hk), g4 k, if_neg hk]
      simp only [List.length_map, List.getElem?_drop]
      congr 1
      omega

/-- C12: memory safety is exactly "the result array is long enough" (disjoint or not). -/
theorem C12_memory_safe_iff (hist : List String) (s : String) (paral : Bool) (o1 o2 : List Nat)
    (kap res : Nat) (h : Heap α)
    (h1 : o1.Perm (List.range (h kap).length)) (h2 : o2.Perm (List.range (h kap).length)) :
    (ldCompute (mapperAfter hist) s paral o1 o2 kap res h).isSome = true ↔
      (h kap).length ≤ (h res).length := by
  constructor
  · intro hs
    by_contra hlt
    push Not at hlt
    have fail : ∀ L : List Nat, (h res).length ∈ L →
        ∀ (g : Heap α), (g res).length = (h res).length →
        L.foldlM (eddingtonBody kap res) g = none := by
      intro L
      induction L with
      | nil => intro hm; simp at hm
      | cons j L ih =>
        intro hm g hg
        rw [List.foldlM_cons]
        cases hb : eddingtonBody kap res g j with
        | none => rfl
        | some g' =>
          have hj : j < (g res).length ∧ (g' res).length = (g res).length := by
            unfold eddingtonBody at hb
            cases hr : rd (g kap) (j : Int) with
            | none => rw [hr] at hb; simp at hb
            | some m =>
              rw [hr] at hb
              simp only [Option.bind_eq_bind, Option.bind_some, wr] at hb
              split at hb
              · simp at hb
              · split at hb
                · rename_i hlt2
                  simp at hb hlt2
                  subst hb
                  exact ⟨hlt2, by simp [Heap.put]⟩
                · simp at hb
          have : (h res).length ∈ L := by
            rcases List.mem_cons.1 hm with e | e
            · omega
            · exact e
          exact ih this g' (by omega)
    have bfail : branch paral o1 (h kap).length kap res h = none := by
      unfold branch eddington eddingtonParallel
      split
      · exact fail _ (by rw [h1.mem_iff, List.mem_range]; exact hlt) h rfl
      · exact fail _ (List.mem_range.2 hlt) h rfl
    unfold ldCompute compute at hs
    rw [mapperIndex_zero] at hs
    simp only [optEddington, if_true, bfail] at hs
    simp at hs
  · intro hlen
    obtain ⟨g, g1, g2, g3, g4⟩ := branch_spec paral o1 (h kap).length kap res h1 h le_rfl hlen
    have gk : (g kap).length = (h kap).length := by
      by_cases e : kap = res
      · subst e; exact g3
      · rw [g2 _ e]
    obtain ⟨f, f1, -⟩ := branch_spec paral o2 (h kap).length kap res h2 g (by rw [gk])
      (by rw [g3]; exact hlen)
    unfold ldCompute compute
    rw [mapperIndex_zero]
    simp only [optEddington, if_true, g1, Option.bind_eq_bind, Option.bind_some, f1]
    rfl

/-- C13: passing one array for both arguments applies the law TWICE (missing `break`). -/
theorem C13_inplace_applies_twice (hist : List String) (s : String) (paral : Bool)
    (o1 o2 : List Nat) (kap : Nat) (h : Heap α)
    (h1 : o1.Perm (List.range (h kap).length)) (h2 : o2.Perm (List.range (h kap).length)) :
    ∃ h', ldCompute (mapperAfter hist) s paral o1 o2 kap kap h = some h' ∧
      (∀ r, r ≠ kap → h' r = h r) ∧
      h' kap = (h kap).map (fun m => ((1 : Nat) : α) + (((3 : Nat) : α) / ((2 : Nat) : α)) *
        (((1 : Nat) : α) + (((3 : Nat) : α) / ((2 : Nat) : α)) * m)) := by
  obtain ⟨g, g1, g2, g3, g4⟩ := branch_spec paral o1 (h kap).length kap kap h1 h le_rfl le_rfl
  obtain ⟨f, f1, f2, f3, f4⟩ := branch_spec paral o2 (h kap).length kap kap h2 g (by rw [g3])
    (by rw [g3])
  refine ⟨f, ?_, fun r hr => by rw [f2 r hr, g2 r hr], ?_⟩
  · unfold ldCompute compute
    rw [mapperIndex_zero]
    simp only [optEddington, if_true, g1, Option.bind_eq_bind, Option.bind_some]; exact f1
  · apply List.ext_getElem?
    intro k
    rw [f4 k, g4 k]
    split
    · rw [List.getElem?_map, Option.map_map]; rfl
    · rename_i hk
      rw [List.getElem?_eq_none (by omega), List.getElem?_eq_none (by simpa using hk)]

end

/-- C13 partial: the in-place call gives the Eddington law of the old contents exactly when every
element equals -2 (never for a physical μ in [-1,1]).  The full claim ("for all arrays") is false. -/
theorem C13_inplace_correct_iff_partial {K : Type} [Field K] [CharZero K] (hist : List String)
    (s : String) (paral : Bool)
    (o1 o2 : List Nat) (kap : Nat) (h : Heap K)
    (h1 : o1.Perm (List.range (h kap).length)) (h2 : o2.Perm (List.range (h kap).length)) :
    (∃ h', ldCompute (mapperAfter hist) s paral o1 o2 kap kap h = some h' ∧
      h' kap = (h kap).map (fun m => 1 + 3 / 2 * m)) ↔ ∀ m ∈ h kap, m = -2 := by
  obtain ⟨g, g1, g2, g3⟩ := C13_inplace_applies_twice hist s paral o1 o2 kap h h1 h2
  have key : ∀ m : K, (1 + 3 / 2 * (1 + 3 / 2 * m) = 1 + 3 / 2 * m) ↔ m = -2 := by
    intro m
    constructor
    · intro e
      have h2 : (2 : K) ≠ 0 := by norm_num
      have h3 : (3 : K) ≠ 0 := by norm_num
      have e' : (3 : K) * (m + 2) = 0 := by
        have : (1 + 3 / 2 * (1 + 3 / 2 * m) - (1 + 3 / 2 * m)) * 4 = 0 := by rw [e]; ring
        have e2 : (1 + 3 / 2 * (1 + 3 / 2 * m) - (1 + 3 / 2 * m)) * 4 = 3 * (m + 2) := by
          field_simp; ring
        rw [← e2]; exact this
      rcases mul_eq_zero.1 e' with h | h
      · exact absurd h h3
      · exact eq_neg_of_add_eq_zero_left h
    · rintro rfl; field_simp; ring
  constructor
  · rintro ⟨h', e1, e2⟩
    rw [g1] at e1
    obtain rfl := Option.some.inj e1
    rw [g3] at e2
    intro m hm
    have := (List.map_inj_left.1 e2) m hm
    push_cast at this
    exact (key m).1 this
  · intro hall
    refine ⟨g, g1, ?_⟩
    rw [g3]
    apply List.map_congr_left
    intro m hm
    push_cast
    exact (key m).2 (hall m hm)

/-- Non-vacuity for C12/C13: disjoint arrays of different lengths, an out-of-order schedule, an
unknown selection string; and a physical value for which the in-place call is wrong. -/
example : ∃ (h : Heap ℚ) (o1 o2 : List Nat), (h 0).length < (h 1).length ∧ (h 0).length = 3 ∧
    o1.Perm (List.range (h 0).length) ∧ o2.Perm (List.range (h 0).length) ∧ o1 ≠ o2 ∧
    ¬ ∀ m ∈ h 0, m = -2 := by
  refine ⟨fun r => if r = 0 then [0, 1/2, 1] else [0, 0, 0, 0], [2, 0, 1], [1, 0, 2],
    by simp, by simp, ?_, ?_, by decide, ?_⟩
  · show List.Perm [2,0,1] (List.range 3); decide
  · show List.Perm [1,0,2] (List.range 3); decide
  · intro h; have := h 0 (by simp); norm_num at this

end Verif.Ld
