import Verif.Ld.Model
import Verif.CommonLemmas
/-! Lemmas about the limb-darkening loops. -/
namespace Verif.Ld
variable {α : Type} [Add α] [Mul α] [Div α] [NatCast α]

/-- The Eddington limb-darkening law `1 + 1.5 μ`. -/
def law (m : α) : α := ((1 : Nat) : α) + (((3 : Nat) : α) / ((2 : Nat) : α)) * m

theorem mapper_all0 (hist : List String) : ∀ e ∈ mapperAfter hist, e.2 = 0 := by
  unfold mapperAfter
  have gen : ∀ (m : Mapper), (∀ e ∈ m, e.2 = 0) →
      ∀ e ∈ hist.foldl (fun m s => (mapperIndex m s).2) m, e.2 = 0 := by
    induction hist with
    | nil => intro m hm; simpa using hm
    | cons s l ih =>
      intro m hm
      rw [List.foldl_cons]
      apply ih
      unfold mapperIndex
      split
      · exact hm
      · intro e he
        rcases List.mem_cons.1 he with rfl | he
        · rfl
        · exact hm e he
  apply gen
  simp [mapper0, optEddington]

theorem lookup_zero (m : Mapper) (h : ∀ e ∈ m, e.2 = 0) (s : String) (v : Nat)
    (hv : m.lookup s = some v) : v = 0 := by
  induction m with
  | nil => simp at hv
  | cons e m ih =>
    obtain ⟨k, w⟩ := e
    rw [List.lookup_cons] at hv
    split at hv
    · have := h (k, w) (by simp); simp at this hv; omega
    · exact ih (fun e he => h e (by simp [he])) hv

theorem mapperIndex_zero (hist : List String) (s : String) :
    (mapperIndex (mapperAfter hist) s).1 = 0 := by
  unfold mapperIndex
  split
  · rename_i v hv
    exact lookup_zero _ (mapper_all0 hist) s v hv
  · rfl

theorem body_some (mus lds : Nat) (h : Heap α) (k : Nat) (hm : k < (h mus).length)
    (hl : k < (h lds).length) :
    eddingtonBody mus lds h k = some (h.put lds ((h lds).set k (law (h mus)[k]))) := by
  have hk : ¬ ((k : Int) < 0) := by omega
  simp [eddingtonBody, rd, wr, hl, hm, law, hk]

/-- One pass over pairwise different indices, whether or not the buffers coincide. -/
theorem pass (mus lds : Nat) (L : List Nat) (hL : L.Nodup) (h : Heap α)
    (hm : ∀ k ∈ L, k < (h mus).length) (hl : ∀ k ∈ L, k < (h lds).length) :
    ∃ h', L.foldlM (eddingtonBody mus lds) h = some h' ∧ (∀ r, r ≠ lds → h' r = h r) ∧
      (h' lds).length = (h lds).length ∧
      ∀ k, (h' lds)[k]? = if k ∈ L then (h mus)[k]?.map law else (h lds)[k]? := by
  induction L generalizing h with
  | nil => exact ⟨h, rfl, fun _ _ => rfl, rfl, fun k => by simp⟩
  | cons j L ih =>
    have hj := List.nodup_cons.1 hL
    have hmj := hm j (by simp)
    have hlj := hl j (by simp)
    rw [List.foldlM_cons, body_some _ _ _ _ hmj hlj]
    set g : Heap α := h.put lds ((h lds).set j (law (h mus)[j])) with hg
    have glds : g lds = (h lds).set j (law (h mus)[j]) := by simp [hg, Heap.put]
    have gne : ∀ r, r ≠ lds → g r = h r := fun r hr => by simp [hg, Heap.put, hr]
    have gmus : (g mus).length = (h mus).length := by
      by_cases e : mus = lds
      · subst e; rw [glds]; simp
      · rw [gne _ e]
    have gmusk : ∀ k, k ≠ j → (g mus)[k]? = (h mus)[k]? := by
      intro k hk
      by_cases e : mus = lds
      · subst e; rw [glds, List.getElem?_set_ne (Ne.symm hk)]
      · rw [gne _ e]
    obtain ⟨h', e1, e2, e3, e4⟩ := ih hj.2 g
      (fun k hk => by rw [gmus]; exact hm k (by simp [hk]))
      (fun k hk => by rw [glds]; simpa using hl k (by simp [hk]))
    refine ⟨h', e1, fun r hr => by rw [e2 r hr, gne r hr], by rw [e3, glds]; simp, ?_⟩
    intro k
    rw [e4 k]
    by_cases hkj : k = j
    · subst hkj
      rw [if_neg hj.1, if_pos (by simp), glds]
      simp [hlj, hmj]
    · by_cases hk : k ∈ L
      · rw [if_pos hk, if_pos (by simp [hk]), gmusk k hkj]
      · rw [if_neg hk, if_neg (by simp [hk, hkj]), glds, List.getElem?_set_ne (Ne.symm hkj)]

/-- Running one branch (serial or parallel in any order). -/
theorem branch_spec (p : Bool) (o : List Nat) (n mus lds : Nat) (ho : o.Perm (List.range n))
    (h : Heap α) (hm : n ≤ (h mus).length) (hl : n ≤ (h lds).length) :
    ∃ h', branch p o n mus lds h = some h' ∧ (∀ r, r ≠ lds → h' r = h r) ∧
      (h' lds).length = (h lds).length ∧
      ∀ k, (h' lds)[k]? = if k < n then (h mus)[k]?.map law else (h lds)[k]? := by
  have gen : ∀ L : List Nat, L.Perm (List.range n) → ∃ h', L.foldlM (eddingtonBody mus lds) h = some h' ∧
      (∀ r, r ≠ lds → h' r = h r) ∧ (h' lds).length = (h lds).length ∧
      ∀ k, (h' lds)[k]? = if k < n then (h mus)[k]?.map law else (h lds)[k]? := by
    intro L hp
    have mem : ∀ k, k ∈ L ↔ k < n := fun k => by rw [hp.mem_iff, List.mem_range]
    obtain ⟨h', a, b, c, d⟩ := pass mus lds L (hp.nodup_iff.2 List.nodup_range) h
      (fun k hk => by have := (mem k).1 hk; omega) (fun k hk => by have := (mem k).1 hk; omega)
    refine ⟨h', a, b, c, fun k => ?_⟩
    rw [d k]; simp only [mem]
  unfold branch eddingtonParallel eddington
  split
  · exact gen o ho
  · exact gen _ (List.Perm.refl _)

end Verif.Ld
