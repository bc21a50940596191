import Verif.Jacky.Spec
/-!
# The two searches return the first maximiser
-/
namespace Verif.Jacky
open Verif.Hist X
open Classical

/-- NaN is no value. -/
noncomputable def toL : X → Option EReal
  | nan => none
  | ninf => some ⊥
  | pinf => some ⊤
  | fin r => some (r : EReal)

theorem gt_iff (a b : X) : gt a b = true ↔ ∃ u v, toL a = some u ∧ toL b = some v ∧ v < u := by
  cases a <;> cases b <;> simp [gt, toL, bot_lt_iff_ne_bot, lt_top_iff_ne_top]

theorem foldlM_ok {A S : Type} (cs : List A) (L : A → M (X × S)) (v : A → X) (s : A → S)
    (hL : ∀ a ∈ cs, L a = .ok (v a, s a)) (b : X × S) :
    cs.foldlM (fun b a => (L a).map (keepBest b)) b =
      (.ok (cs.foldl (fun b a => keepBest b (v a, s a)) b) : M (X × S)) := by
  induction cs generalizing b with
  | nil => rfl
  | cons a t ih =>
    rw [List.foldlM_cons, hL a (by simp)]
    show (t.foldlM _ _ : M (X × S)) = _
    rw [ih (fun a ha => hL a (List.mem_cons_of_mem _ ha))]
    rfl

theorem fold_rel {A S : Type} (cs : List A) (v : A → X) (s : A → S) (init : S)
    (b : X × S) (c : EReal × Option A) (h1 : toL b.1 = some c.1) (h2 : b.2 = c.2.elim init s) :
    ∃ r : EReal × Option A,
      ((cs.map some).foldl (fun (b : EReal × Option A) c =>
        match (c.elim none (fun a => toL (v a)) : Option EReal) with
        | some v => if b.1 < v then (v, c) else b
        | none => b) c) = r ∧
      (cs.foldl (fun b a => keepBest b (v a, s a)) b).2 = r.2.elim init s := by
  induction cs generalizing b c with
  | nil => exact ⟨_, rfl, h2⟩
  | cons a t ih =>
    simp only [List.map_cons, List.foldl_cons, Option.elim_some]
    by_cases hg : gt (v a) b.1 = true
    · obtain ⟨u, w, e1, e2, e3⟩ := (gt_iff _ _).1 hg
      rw [h1] at e2
      cases e2
      have : keepBest b (v a, s a) = (v a, s a) := by rw [keepBest, if_pos hg]
      rw [this, e1]
      simp only [if_pos e3]
      exact ih _ _ e1 rfl
    · have hk : keepBest b (v a, s a) = b := by rw [keepBest, if_neg hg]
      rw [hk]
      cases hv : toL (v a) with
      | none => exact ih _ _ h1 h2
      | some u =>
        have : ¬ c.1 < u := fun hlt => hg ((gt_iff _ _).2 ⟨u, c.1, hv, h1, hlt⟩)
        simp only [if_neg this]
        exact ih _ _ h1 h2

/-- The search loop keeps the first maximiser. -/
theorem searchLoop_spec {A S : Type} (init : S) (cs : List A) (L : A → M (X × S)) (v : A → X) (s : A → S)
    (hL : ∀ a ∈ cs, L a = .ok (v a, s a)) (h : ∃ a ∈ cs, ∃ r, v a = fin r) :
    ∃ a ∈ cs, FirstMax cs (fun a => toL (v a)) a ∧ searchLoop init cs L = .ok (s a) := by
  obtain ⟨a0, ha0, r0, hr0⟩ := h
  obtain ⟨r, e1, e2⟩ := fold_rel cs v s init (ninf, init) (⊥, none) rfl rfl
  have hs : searchLoop init cs L = .ok (r.2.elim init s) := by
    rw [searchLoop, foldlM_ok cs L v s hL, ← e2]; rfl
  rcases iter_fold (fun c : Option A => (c.elim none (fun a => toL (v a)) : Option EReal)) (cs.map some)
    (⊥, none) with ⟨pre, c, post, u, h1, h2, h3, h4, h5, h6⟩ | ⟨_, h2⟩
  · have h4' := e1.symm.trans h4
    obtain ⟨pre', rest, rfl, rfl, hrest⟩ := List.map_eq_append_iff.1 h1
    obtain ⟨a, post', rfl, rfl, rfl⟩ := List.map_eq_cons_iff.1 hrest
    refine ⟨a, by simp, ⟨pre', post', u, rfl, h2, ?_, ?_⟩, ?_⟩
    · intro x hx w hw
      exact h5 (some x) (List.mem_map.2 ⟨x, hx, rfl⟩) w hw
    · intro x hx w hw
      exact h6 (some x) (List.mem_map.2 ⟨x, hx, rfl⟩) w hw
    · rw [hs, h4']; rfl
  · exfalso
    have := h2 (some a0) (List.mem_map.2 ⟨a0, ha0, rfl⟩) (r0 : EReal) (by simp [hr0, toL])
    simp at this

theorem findIdx_split {A : Type} (p : A → Bool) (l1 l2 : List A) (x : A) (h : ∀ a ∈ l1, p a = false)
    (hx : p x = true) : (l1 ++ x :: l2).findIdx p = l1.length := by
  induction l1 with
  | nil => simp [List.findIdx_cons, hx]
  | cons b t ih =>
    rw [List.cons_append, List.findIdx_cons, h b (by simp)]
    simp [ih (fun a ha => h a (List.mem_cons_of_mem _ ha))]

/-- `np.nanargmax` finds the first maximiser. -/
theorem nanargmax_spec {A : Type} (cs : List A) (v : A → X) (a : A)
    (h : FirstMax cs (fun a => toL (v a)) a) (hb : ∃ r, v a = fin r) :
    ∃ i, nanargmax (cs.map v) = .ok i ∧ cs[i]? = some a := by
  obtain ⟨pre, post, u, rfl, h2, h3, h4⟩ := h
  obtain ⟨r, hr⟩ := hb
  have hu : u = (r : EReal) := by simp only [hr, toL, Option.some.injEq] at h2; exact h2.symm
  have hne : ¬ ∀ w ∈ (pre ++ a :: post).map v, w = nan := by
    intro hall
    have := hall (v a) (by simp)
    rw [hr] at this; cases this
  refine ⟨pre.length, ?_, by simp⟩
  rw [nanargmax, if_neg hne]
  show Except.ok _ = Except.ok _
  congr 1
  have hfr : deNan (v a) = fin r := by rw [hr]; rfl
  have key : ∀ w : X, gt (deNan w) (fin r) = true ↔ ∃ e, toL w = some e ∧ (r : EReal) < e := by
    intro w
    cases w <;> simp [deNan, gt, toL]
  have key2 : ∀ w : X, (∀ e, toL w = some e → e < (r : EReal)) → gt (fin r) (deNan w) = true := by
    intro w hw
    cases w <;> simp [deNan, gt, toL] at hw ⊢
    exact hw
  have hall : ∀ x ∈ pre ++ a :: post, gt (deNan (v x)) (fin r) = false := by
    intro x hx
    rw [Bool.eq_false_iff]
    intro hg
    obtain ⟨e, he, hlt⟩ := (key _).1 hg
    rw [← hu] at hlt
    rcases List.mem_append.1 hx with hx | hx
    · exact absurd (h3 x hx e he) hlt.asymm
    · rcases List.mem_cons.1 hx with rfl | hx
      · cases (show toL (v x) = some u from h2).symm.trans he; exact lt_irrefl _ hlt
      · exact absurd (h4 x hx e he) hlt.not_ge
  simp only [List.map_append, List.map_cons, List.map_map]
  rw [findIdx_split]
  · simp
  · intro x hx
    obtain ⟨y, hy, rfl⟩ := List.mem_map.1 hx
    rw [Bool.eq_false_iff]
    intro hg
    have := List.all_eq_true.1 hg (deNan (v a)) (by simp)
    rw [hfr, Function.comp, key2 (v y)] at this
    · simp at this
    · intro e he; rw [← hu]; exact h3 y hy e he
  · rw [hfr, List.all_eq_true]
    intro x hx
    have hx' : ∃ y ∈ pre ++ a :: post, x = deNan (v y) := by
      simp only [List.mem_append, List.mem_map, List.mem_cons] at hx
      rcases hx with ⟨y, hy, rfl⟩ | rfl | ⟨y, hy, rfl⟩
      · exact ⟨y, by simp [hy], rfl⟩
      · exact ⟨a, by simp, hfr.symm⟩
      · exact ⟨y, by simp [hy], rfl⟩
    obtain ⟨y, hy, rfl⟩ := hx'
    simp [hall y hy]

end Verif.Jacky
