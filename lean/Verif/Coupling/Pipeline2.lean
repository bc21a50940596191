import Verif.Coupling.Pipeline
/-! # C92, C93: normalisation of the modes and the normalised coefficient (theorems) -/
namespace Verif.Norm
variable {params : List String} {E : Oracle} {s : Star}

/-- Without refinement the normaliser succeeds when all radial functions are there. -/
theorem call_total (hnd : params.Nodup) (convention : String) (nr maxIter : Nat) (modes : Nat → Mode) (c : Conv)
    (hc : convOf convention = some c) (hattr : ∀ i, 1 ≤ i → i ≤ nr → ∀ n ∈ params, ((modes i).attrs n).isSome) :
    ∃ st, call params E s convention nr false maxIter modes = some st := by
  have htot : ∀ (c : Conv) (l : List Nat), (∀ i ∈ l, i ∈ modeNrs nr) → ∀ st : St,
      (∀ i ∈ modeNrs nr, ∀ n ∈ params, ((st.modes i).attrs n).isSome) →
      ∃ st', l.foldlM (initOne params c s) st = some st' := by
    intro c l
    induction l with
    | nil => intro _ st _; exact ⟨st, rfl⟩
    | cons i t ih =>
      intro hl st hst
      obtain ⟨b, hb⟩ := scaleAll_total params (factor c s (st.modes i)) (st.modes i).attrs
        (hst i (hl i List.mem_cons_self))
      have h1 : initOne params c s st i = some (setAttrs
          { st with factors := Function.update st.factors i (factor c s (st.modes i)) } i b) := by
        simp [initOne, hb]
      rw [List.foldlM_cons, h1]
      apply ih (fun j hj => hl j (List.mem_cons_of_mem _ hj))
      intro j hj n hn
      by_cases hji : j = i
      · subst hji
        have := scaleAll_spec params hnd _ _ _ hb n
        simp only [setAttrs, Function.update_self, this, if_pos hn, Option.isSome_map]
        exact hst j hj n hn
      · simpa [setAttrs, hji] using hst j hj n hn
  obtain ⟨c', hc'⟩ : ∃ c', (if nr = 0 then some Conv.lee2012 else convOf convention) = some c' := by
    split_ifs
    · exact ⟨_, rfl⟩
    · exact ⟨c, hc⟩
  obtain ⟨st1, h1⟩ := htot c' (modeNrs nr) (fun _ h => h) ⟨modes, fun _ => 0, fun _ => true, 0, 0⟩ (by
    intro i hi n hn
    have := (mem_modeNrs nr i).1 hi
    exact hattr i this.1 this.2 n hn)
  simp [call, hc', h1]

theorem lee_conv : convOf "lee2012" = some .lee2012 := by
  have : "lee2012".toUpper = "LEE2012" := by decide +kernel
  simp [convOf, this]

end Verif.Norm

namespace Verif.Coupling
noncomputable section
open Real Classical

theorem foldl_update_name (a : String → Option (List ℝ)) (i j : Fin 3) (b : String) : ∀ (ps : List String) (s0 : String → Option (List ℝ)),
    (ps.foldl (fun s n => Function.update s (name n (i + 1)) (a n)) s0) (name b (j + 1)) =
      if i = j ∧ b ∈ ps then a b else s0 (name b (j + 1))
  | [], s0 => by simp
  | p :: ps, s0 => by
    rw [List.foldl_cons, foldl_update_name a i j b ps]
    by_cases hij : i = j
    · subst hij
      by_cases hb : b ∈ ps
      · simp [hb]
      · by_cases e : b = p
        · subst e; simp [hb]
        · have : name b (i + 1) ≠ name p (i + 1) := fun h => e (name_injective _ _ _ _ h).1
          simp [hb, e, Function.update_of_ne this]
    · have : name b (j + 1) ≠ name p (i + 1) := fun h => hij (name_injective _ _ _ _ h).2.symm
      simp [hij, Function.update_of_ne this]

theorem withMode_attr (o : Obj) (i j : Fin 3) (a : String → Option (List ℝ)) (b : String) :
    (withMode o (i + 1) a).attr (name b (j + 1)) = if i = j ∧ b ∈ params o then a b else o.attr (name b (j + 1)) :=
  foldl_update_name a i j b (params o) o.attr

/-- Storing scaled radial functions is a rescaling of that mode. -/
theorem withMode_rescaled (o : Obj) (i : Fin 3) (F : ℝ) (a : String → Option (List ℝ))
    (h : Norm.ScaledBy (params o) F (fun n => o.attr (name n (i + 1))) a) :
    Rescaled (Function.update (fun _ => 1) i F) (fun _ => 1) o (withMode o (i + 1) a) where
  rad b hb k := by
    rw [withMode_attr]
    by_cases hk : i = k
    · subst hk
      rw [if_pos ⟨rfl, hb⟩, h b, if_pos hb]; simp
    · rw [if_neg (fun h => hk h.1)]; simp [Function.update_of_ne (Ne.symm hk)]
  ang b hb k := by
    rw [withMode_attr, if_neg]
    · simp
    · rintro ⟨-, h'⟩; exact params_not_functional o _ h' b hb rfl
  rest := rfl

/-- No Chebyshev options. -/
def Regular (o : Obj) : Prop := o.useCheby = false ∧ o.protect = false

theorem normalize_spec (s : Setting) (o o2 : Obj) (E F : ℕ → ℝ) (h : normalize s o = some (o2, E, F)) :
    (∀ k : Fin 3, ∃ e, modeEnergy o s.omegaRot (s.omega (k + 1)) (k + 1) = some e ∧ 0 < e.2 ∧
      F (k + 1) = √(s.G * s.M ^ 2 / (o.R * e.2)) ∧ E (k + 1) = F (k + 1) ^ 2 * e.2) ∧
    Rescaled (fun k => F (k + 1)) (fun _ => 1) o o2 ∧
    ∀ k : Fin 3, ∀ n ∈ params o, (o.attr (name n (k + 1))).isSome := by
  unfold normalize at h
  split_ifs at h with he
  simp only [Option.bind_eq_bind] at h
  obtain ⟨st, hst, h⟩ := Option.bind_eq_some_iff.1 h
  have hnd := params_nodup o
  obtain ⟨c, st0, hc, hi, h0, hE, hlast⟩ := Norm.call_split hnd "lee2012" 3 false 10 _ st hst
  simp only [Bool.false_and, Bool.false_eq_true, if_false, Option.some.injEq] at hlast
  subst hlast
  obtain rfl : c = .lee2012 := by
    have := hc (by norm_num)
    rw [Norm.lee_conv] at this; exact (Option.some.inj this).symm
  have hm : ∀ k : Fin 3, (k : ℕ) + 1 ∈ Norm.modeNrs 3 := fun k => (Norm.mem_modeNrs 3 _).2 ⟨by omega, by omega⟩
  have hsc : ∀ k : Fin 3, Norm.ScaledBy (params o) (st0.factors (k + 1)) (fun n => o.attr (name n (k + 1))) (st0.modes (k + 1)).attrs :=
    fun k => (hi _ (hm k)).1
  have hresc : ∀ k : Fin 3, Rescaled (Function.update (fun _ => 1) k (st0.factors (k + 1))) (fun _ => 1) o
      (withMode o (k + 1) (st0.modes (k + 1)).attrs) := fun k => withMode_rescaled o k _ _ (hsc k)
  simp only [pure, Option.some.injEq, Prod.mk.injEq] at h
  obtain ⟨h2, h3, h4⟩ := h
  subst h3 h4
  refine ⟨?_, ?_, ?_⟩
  · intro k
    obtain ⟨e, h1, hp⟩ := he (k + 1) (by fin_cases k <;> simp)
    refine ⟨e, h1, hp, ?_, ?_⟩
    · rw [(hE _ (hm k)).1]
      simp [Norm.factor, modeOf, h1]
    · obtain ⟨-, c, hk⟩ := hE _ (hm k)
      have hk1 : (st0.modes (k + 1)).energy = _ := congrArg Prod.fst hk
      have hq := C69_quadratic (hresc k).scaled (Or.inr fun _ => rfl) s.omegaRot (s.omega (k + 1)) k
      show (st0.modes (k + 1)).energy = _
      rw [hk1]
      simp only [oracle]
      rw [hq, h1]
      simp
  · subst h2
    have r0 := withMode_rescaled o 0 _ _ (hsc 0)
    have p0 := r0.params
    set o1 := withMode o ((0 : Fin 3) + 1) (st0.modes ((0 : Fin 3) + 1)).attrs with ho1
    have s1 : Norm.ScaledBy (params o1) (st0.factors ((1 : Fin 3) + 1)) (fun n => o1.attr (name n ((1 : Fin 3) + 1)))
        (st0.modes ((1 : Fin 3) + 1)).attrs := by
      rw [p0]
      intro n
      have := hsc 1 n
      have e : o1.attr (name n ((1 : Fin 3) + 1)) = o.attr (name n ((1 : Fin 3) + 1)) := by
        rw [ho1, withMode_attr, if_neg (by simp)]
      simp only [e]; exact this
    have r1 := withMode_rescaled o1 1 _ _ s1
    have p1 := r1.params
    set o2 := withMode o1 ((1 : Fin 3) + 1) (st0.modes ((1 : Fin 3) + 1)).attrs with ho2
    have s2 : Norm.ScaledBy (params o2) (st0.factors ((2 : Fin 3) + 1)) (fun n => o2.attr (name n ((2 : Fin 3) + 1)))
        (st0.modes ((2 : Fin 3) + 1)).attrs := by
      rw [p1, p0]
      intro n
      have := hsc 2 n
      have e : o2.attr (name n ((2 : Fin 3) + 1)) = o.attr (name n ((2 : Fin 3) + 1)) := by
        rw [ho2, withMode_attr, if_neg (by simp), ho1, withMode_attr, if_neg (by simp)]
      simp only [e]; exact this
    have r2 := withMode_rescaled o2 2 _ _ s2
    have := (r0.trans r1).trans r2
    convert this using 1
    · funext k; fin_cases k <;> simp
    · funext k; simp
    · rfl
  · intro k n hn
    simp only [Norm.call, Norm.lee_conv, Option.bind_eq_bind] at hst
    simp only [show (3 : ℕ) ≠ 0 by norm_num, if_false, Option.bind_some] at hst
    obtain ⟨st1, e1, -⟩ := Option.bind_eq_some_iff.1 hst
    -- every mode was scaled at some point of the loop
    have key : ∀ (l : List ℕ) (a b : Norm.St), l.foldlM (Norm.initOne (params o) .lee2012 ⟨s.G, s.M, o.R⟩) a = some b → l.Nodup →
        ∀ i ∈ l, ∀ n ∈ params o, ((a.modes i).attrs n).isSome := by
      intro l
      induction l with
      | nil => simp
      | cons j t ih =>
        intro a b hab hl i hi' n hn'
        rw [List.foldlM_cons] at hab
        obtain ⟨a1, h1, h2⟩ := Option.bind_eq_some_iff.1 hab
        simp only [Norm.initOne, Option.bind_eq_bind] at h1
        obtain ⟨aj, h3, h4⟩ := Option.bind_eq_some_iff.1 h1
        have hpres := scaleAll_some _ _ _ _ h3
        rcases List.mem_cons.1 hi' with rfl | ht
        · exact hpres n hn'
        · have := ih a1 b h2 (List.nodup_cons.1 hl).2 i ht n hn'
          have hne : i ≠ j := by rintro rfl; exact (List.nodup_cons.1 hl).1 ht
          cases h4
          simpa [Norm.setAttrs, Function.update_of_ne hne] using this
    exact key _ _ _ e1 (Norm.modeNrs_nodup 3) _ (hm k) n hn

theorem normalize_total (s : Setting) (o : Obj) (hp : ∀ k : Fin 3, ∀ n ∈ params o, (o.attr (name n (k + 1))).isSome)
    (he : ∀ k : Fin 3, ∃ e, modeEnergy o s.omegaRot (s.omega (k + 1)) (k + 1) = some e ∧ 0 < e.2) :
    ∃ r, normalize s o = some r := by
  unfold normalize
  rw [if_pos (by
    intro k hk
    simp only [List.mem_cons, List.not_mem_nil, or_false] at hk
    rcases hk with rfl | rfl | rfl
    · exact he 0
    · exact he 1
    · exact he 2)]
  obtain ⟨st, hst⟩ := Norm.call_total (E := oracle s o) (s := ⟨s.G, s.M, o.R⟩) (params_nodup o) "lee2012" 3 10 (modeOf s o) .lee2012
    Norm.lee_conv (by
      intro i h1 h3 n hn
      have : ∃ k : Fin 3, i = k + 1 := ⟨⟨i - 1, by omega⟩, by simp; omega⟩
      obtain ⟨k, rfl⟩ := this
      exact hp k n hn)
  exact ⟨_, by rw [hst]; rfl⟩

end
end Verif.Coupling
