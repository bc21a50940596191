import Verif.Assemble.Total
/-!
# The other mode profiles: on the common grid, but not cut (C94)
-/
namespace Verif.Assemble

namespace Spec
/-- The mode profiles of a GYRE file that are not used in the coupling coefficient of a MESA model. -/
def otherQuantities : List String :=
  ["y_3", "y_4", "y_5", "y_6", "lag_L", "eul_P", "eul_rho", "eul_T", "lag_P", "lag_rho", "lag_T", "xi_r_dim", "xi_h_dim",
   "eul_phi_dim", "deul_phi_dim", "lag_L_dim", "eul_P_dim", "eul_rho_dim", "eul_T_dim", "lag_P_dim", "lag_rho_dim", "lag_T_dim"]
/-- The number of points of a profile. -/
def Points : Val → ℕ → Prop
  | .arr a, n => a.length = n
  | .cplx a b, n => a.length = n ∧ b.length = n
  | _, _ => False
end Spec

/-- **C94, refutation of the full claim.** The other mode profiles are brought to the grid of the first file in the same way, but
their ends are not cut: with any cut they have more points than the radial coordinate of the object. -/
theorem C94_uncut_wrong (cc cs : Bool) (d1 d2 d3 add : Dict) (x1 x2 x3 : List ℝ) (s : Attrs) (nP nρ : ℝ)
    (f1 : Spec.File d1 x1) (f2 : Spec.File d2 x2) (f3 : Spec.File d3 x3) (hp : Spec.Profiles Spec.structureQuantities d1 x1)
    (hn : Spec.NoClash add) (h : assembleMesa cc cs d1 d2 d3 add = some (s, nP, nρ)) (i : Fin 3) (k : String)
    (hk : k ∈ Spec.otherQuantities) (v : Val) (hv : ((![d1, d2, d3] : Fin 3 → Dict) i).get k = some v) :
    ∃ w x, Spec.ResampledVal x1 ((![x1, x2, x3] : Fin 3 → List ℝ) i) v w ∧
      s ("_" ++ k ++ "_mode_" ++ toString ((i : ℕ) + 1)) = some w ∧ s "_x" = some (.arr x) ∧
      Spec.Points w (x.length + (cc.toNat + cs.toNat)) := by
  obtain ⟨_, _, ⟨x, hx, ht⟩, _⟩ := C94_one_grid_partial cc cs d1 d2 d3 add x1 x2 x3 s nP nρ f1 f2 f3 hp hn h
  obtain ⟨s1, s2, s3, g, p, ρ, h1, h2, h3, h4, h5, h6, h7, h8, h9⟩ := mesa_stages _ _ _ _ _ _ _ _ _ h
  have hkn := pick_files f1 f2 f3
  obtain ⟨m1, m2, m3, xs, e1, e2, e3, ex, hx1, hget, hoth⟩ := interpolation_spec _ _ _ _ _ h1 hkn
  rw [file_size f1] at e1; rw [file_size f2] at e2; rw [file_size f3] at e3
  cases e1; cases e2; cases e3
  obtain ⟨xs', ex', l1, l2, l3, luniq⟩ := longest_grid d1 d2 d3 x1 x2 x3 f1 f2 f3
  rw [ex] at ex'; cases ex'
  obtain ⟨c1, c2, c3⟩ := cut_all _ _ _ _ _ _ h7 h9
  have hx2 : s2 "_x" = some (.arr xs) := by
    rw [additional_other _ _ _ _ h2 "_x" (fun k => profileName_ne k _ (by decide))
      (fun k v hv e => (hn k v hv).1 (by rw [under_inj k "x" e]; decide)), hx1]
  have hxs : x = slice cc cs xs := by
    have := c1 "_x" (by decide)
    rw [hx, hx2] at this
    simpa [Val.cut] using this
  have hpos := f1.pos
  have h2' := two_le cc cs
  have hlen : x.length + (cc.toNat + cs.toNat) = x1.length := by
    have := (slice_trimmed cc cs x1 (by omega))
    have hu : x.length = (slice cc cs x1).length := by
      obtain ⟨t1, t2⟩ := ht
      obtain ⟨u1, u2⟩ := this
      omega
    rw [hu, slice_length]
    omega
  have hxeq : xs = x1 := by
    apply luniq
    rw [hxs, slice_length] at hlen
    omega
  subst hxeq
  have hki : k ∈ interpList := (by decide : ∀ k ∈ Spec.otherQuantities, k ∈ interpList) k hk
  obtain ⟨xp, w, b1, b2, b3⟩ := hget i k v hv hki
  have hxp : xp = (![xs, x2, x3] : Fin 3 → List ℝ) i := by
    fin_cases i
    · exact Option.some.inj (b1.symm.trans (file_grid f1))
    · exact Option.some.inj (b1.symm.trans (file_grid f2))
    · exact Option.some.inj (b1.symm.trans (file_grid f3))
  subst hxp
  have hr := interpVal_spec _ _ _ _ b2
  refine ⟨w, x, hr, ?_, hx, ?_⟩
  · have hmem : ∀ k ∈ Spec.otherQuantities, ∀ i : Fin 3, modeName k (i + 1) ∉ preCuts ++ mesaCuts ++ structureCuts ∧
      modeName k (i + 1) ≠ "_G" := by decide
    change s (modeName k (i + 1)) = _
    rw [c3 _ (hmem k hk i).1 (hmem k hk i).2, additional_other _ _ _ _ h2 _ (fun k' => (mode_profile_ne k k' i).symm)
      (fun k' v' hv' e => (hn k' v' hv').2 k i e), b3]
  · rw [hlen]
    cases v <;> cases w <;> try exact hr.elim
    · exact hr.1
    · exact ⟨hr.1.1, hr.2.1⟩

/-- The example input of C94 with both cuts: the perturbed pressure of the second mode keeps five points, the radial coordinate
three. -/
example : ∃ s nP nρ, assembleMesa true true file5 file4 file5' add3 = some (s, nP, nρ) ∧
    ∃ w x, s "_lag_P_mode_2" = some w ∧ s "_x" = some (.arr x) ∧ Spec.Points w (x.length + 2) := by
  obtain ⟨s, nP, nρ, h⟩ := C94_accepted true true _ _ _ _ _ _ _ _ demo5.1 demo4.1 demo5'.1 demo5.2 ⟨_, rfl⟩ demo3.1 demo3.2
    (by simp) (by simp)
  obtain ⟨w, x, -, h1, h2, h3⟩ := C94_uncut_wrong true true file5 file4 file5' add3 _ _ _ s nP nρ demo5.1.toFile demo4.1.toFile
    demo5'.1.toFile demo5.2 demo3.2 h 1 "lag_P" (by decide) (.arr [4, 3, 2, 1]) rfl
  exact ⟨s, nP, nρ, h, w, x, h1, h2, h3⟩

end Verif.Assemble
