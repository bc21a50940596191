import Verif.Disc.Spec
import Verif.Ld.Props
import Verif.NumInt.Props
/-! Lemmas for the disc integrals. -/
namespace Verif.Disc
open Spec
set_option linter.unusedSectionVars false
variable {α : Type} [Add α] [Sub α] [Mul α] [Div α] [NatCast α] [LE α] [DecidableLE α]

/-- vectors holding a list of samples -/
def vecsOf (l : List (Sample α)) : Vecs α :=
  ⟨l.map (fun s => s.1), l.map (fun s => s.2.1), l.map (fun s => s.2.2.1), l.map (fun s => s.2.2.2)⟩

theorem rd_map {β γ : Type} (l : List β) (f : β → γ) (k : Nat) (h : k < l.length) :
    rd (l.map f) (k : Int) = some (f l[k]) := by
  have hk : ¬ ((k : Int) < 0) := by omega
  simp [rd, hk, h]

theorem rd_nat {β : Type} (l : List β) (k : Nat) : rd l (k : Int) = l[k]? := by
  have hk : ¬ ((k : Int) < 0) := by omega
  simp [rd, hk]

theorem rd_append_left {β : Type} (l r : List β) (k : Nat) (h : k < l.length) :
    rd (l ++ r) (k : Int) = rd l (k : Int) := by
  rw [rd_nat, rd_nat, List.getElem?_append_left h]

theorem adjust_eq (l : List (Sample α)) :
    adjust (l.length : Int) (l.map (fun s => s.1)) (l.map (fun s => s.2.1))
      (l.map (fun s => s.2.2.1)) (l.map (fun s => s.2.2.2)) = some (vecsOf (visible l)) := by
  unfold adjust forUp
  have : ((l.length : Int) - 0).toNat = l.length := by omega
  rw [this]
  have gen : ∀ n, n ≤ l.length → (List.range n).foldlM (fun (v : Vecs α) (k : Nat) => do
      let m ← rd (l.map (fun s => s.1)) (0 + (k : Int))
      if ((0 : Nat) : α) ≤ m ∧ m ≤ ((1 : Nat) : α) then
        let a ← rd (l.map (fun s => s.2.1)) (0 + (k : Int))
        let f ← rd (l.map (fun s => s.2.2.1)) (0 + (k : Int))
        let s ← rd (l.map (fun s => s.2.2.2)) (0 + (k : Int))
        pure ⟨v.mymus_b ++ [m], v.myang_b ++ [a], v.firstder_b ++ [f], v.secondder_b ++ [s]⟩
      else pure v) (⟨[], [], [], []⟩ : Vecs α) = some (vecsOf (visible (l.take n))) := by
    intro n
    induction n with
    | zero => intro _; rfl
    | succ n ih =>
      intro hn
      rw [List.range_succ, List.foldlM_append, ih (by omega)]
      simp only [zero_add, Option.bind_eq_bind, Option.bind_some, List.foldlM_cons, List.foldlM_nil]
      rw [rd_map _ _ _ (by omega), rd_map _ _ _ (by omega), rd_map _ _ _ (by omega),
        rd_map _ _ _ (by omega)]
      rw [List.take_succ_eq_append_getElem (by omega)]
      simp only [Option.bind_some, visible, List.filter_append]
      split
      · rename_i hc
        simp [vecsOf, hc]
      · rename_i hc
        simp [vecsOf, hc]
  have := gen l.length le_rfl
  rw [List.take_length] at this
  exact this

theorem ldVector_eq (ldHist : List String) (lds : String) (paral : Bool) (o : Orders) (mus : List α)
    (h1 : o.ld1.Perm (List.range mus.length)) (h2 : o.ld2.Perm (List.range mus.length)) :
    ldVector ldHist lds paral o mus = some (mus.map Ld.law) := by
  unfold ldVector
  obtain ⟨h', e1, e2, e3⟩ := Ld.C12_eddington_pointwise ldHist lds paral o.ld1 o.ld2 0 1 (by decide)
    (fun r => if r = 0 then mus else List.replicate mus.length ((0 : Nat) : α)) (by simp) (by simpa)
    (by simpa)
  rw [e1]
  simp only [Option.bind_eq_bind, Option.bind_some, Option.pure_def]
  rw [e3]
  simp
  intro a _; rfl

theorem fill_eq (n : Nat) (paral : Bool) (order : List Nat) (ho : order.Perm (List.range n))
    (g : Nat → Option α) (v : Nat → α) (hg : ∀ j, j < n → g j = some (v j)) :
    fill n paral order g = some (tab n v) := by
  have gen : ∀ (L : List Nat), (∀ j ∈ L, j < n) → ∀ (b : List α), b.length = n →
      ∃ b', L.foldlM (fun b j => do let v ← g j; wr b (j : Int) v) b = some b' ∧ b'.length = n ∧
        ∀ k, k < n → b'[k]? = if k ∈ L then some (v k) else b[k]? := by
    intro L
    induction L with
    | nil => intro _ b hb; exact ⟨b, rfl, hb, fun k _ => by simp⟩
    | cons j L ih =>
      intro hL b hb
      have hj : j < n := hL j (by simp)
      have hneg : ¬ ((j : Int) < 0) := by omega
      obtain ⟨b', e1, e2, e3⟩ := ih (fun k hk => hL k (by simp [hk])) (b.set j (v j)) (by simpa)
      refine ⟨b', ?_, e2, ?_⟩
      · rw [List.foldlM_cons, hg j hj]
        simp only [Option.bind_eq_bind, Option.bind_some, wr, hneg, if_false, Int.toNat_natCast, hb,
          hj, if_true]
        exact e1
      · intro k hk
        rw [e3 k hk]
        by_cases hm : k ∈ L
        · simp [hm]
        · by_cases hkj : k = j
          · subst hkj; simp [hb, hk]
          · simp [hm, hkj, List.getElem?_set_ne (Ne.symm hkj)]
  have main : ∀ L : List Nat, L.Perm (List.range n) →
      L.foldlM (fun b j => do let v ← g j; wr b (j : Int) v) (List.replicate n ((0 : Nat) : α))
        = some (tab n v) := by
    intro L hL
    have mem : ∀ k, k ∈ L ↔ k < n := fun k => by rw [hL.mem_iff, List.mem_range]
    obtain ⟨b', e1, e2, e3⟩ := gen L (fun j hj => (mem j).1 hj) (List.replicate n ((0 : Nat) : α))
      (by simp)
    rw [e1]
    congr 1
    apply List.ext_getElem?
    intro k
    by_cases hk : k < n
    · rw [e3 k hk, if_pos ((mem k).2 hk)]; simp [tab, hk]
    · rw [List.getElem?_eq_none (by omega), List.getElem?_eq_none (by simp; omega)]
  unfold fill
  split
  · exact main _ ho
  · exact main _ (List.Perm.refl _)

/-- Closed forms of the two integrands at a sample. -/
def firstAt (s : Sample α) : α := s.1 * s.2.1 * Ld.law s.1
/-- See `firstAt`. -/
def secondAt (s : Sample α) : α :=
  (((((2 : Nat) : α) * s.1) * s.2.2.1) + ((s.1 * s.1 - ((1 : Nat) : α)) * s.2.2.2)) * Ld.law s.1 * s.1

theorem tab_getElem {β γ : Type} (l : List β) (f : β → γ) (g : Nat → γ)
    (h : ∀ k (hk : k < l.length), g k = f l[k]) : tab l.length g = l.map f := by
  apply List.ext_getElem (by simp)
  intro i h1 h2
  simp only [length_tab] at h1
  simp [tab, h i h1]

theorem fill_samples (l : List (Sample α)) (paral : Bool) (order : List Nat)
    (ho : order.Perm (List.range l.length)) (g : Nat → Option α) (f : Sample α → α)
    (hg : ∀ k (hk : k < l.length), g k = some (f l[k])) :
    fill l.length paral order g = some (l.map f) := by
  rcases Nat.eq_zero_or_pos l.length with h0 | hpos
  · have : l = [] := List.length_eq_zero_iff.1 h0
    subst this
    have : order = [] := by simpa using ho
    subst this
    unfold fill; split <;> rfl
  have hd : ∀ k (hk : k < l.length), l.getD k l[0] = l[k] := by
    intro k hk; simp [List.getD_eq_getElem?_getD, hk]
  rw [fill_eq l.length paral order ho g (fun k => f (l.getD k l[0]))
    (fun j hj => by rw [hg j hj, hd j hj])]
  rw [tab_getElem l f]
  intro k hk; rw [hd k hk]

/-- The whole call in closed form. -/
theorem call_eq (ldHist niHist : List String) (o : Orders) (l : List (Sample α))
    (lds ints : String) (threads : Int) (paral : Bool) (ho : Orders.Valid o (visible l).length) :
    call ldHist niHist o l lds ints threads paral =
      (do let r1 ← (NumInt.cniIntegrate (NumInt.mapperAfter niHist) ints true
            ((visible l).map firstAt) ((visible l).map (fun s => s.1)) threads paral).1
          let r2 ← (NumInt.cniIntegrate (NumInt.mapperAfter niHist) ints true
            ((visible l).map secondAt) ((visible l).map (fun s => s.1)) threads paral).1
          pure (r1, r2)) := by
  unfold call getIntegrals
  have hlen : ((l.map (fun s => s.1)).length : Int) = (l.length : Int) := by simp
  rw [hlen, adjust_eq]
  simp only [Option.bind_eq_bind, Option.bind_some]
  obtain ⟨o1, o2, o3, o4⟩ := ho
  generalize hv : visible l = v at *
  have hmus : (vecsOf v).mymus_b = v.map (fun s => s.1) := rfl
  have hml : (vecsOf v).mymus_b.length = v.length := by simp [hmus]
  rw [ldVector_eq _ _ _ _ _ (by rw [hml]; exact o1) (by rw [hml]; exact o2)]
  simp only [Option.bind_some]
  rw [hml, fill_samples v paral o.first o3 _ firstAt, fill_samples v paral o.second o4 _ secondAt]
  · simp only [Option.bind_some, performIntegration, NumInt.cniIntegrate, hmus, List.length_map]
  · intro k hk
    simp [secondIntegrand, vecsOf, rd_nat, hk, secondAt]
  · intro k hk
    simp [firstIntegrand, vecsOf, rd_nat, hk, firstAt]

end Verif.Disc
