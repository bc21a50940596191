import Verif.Fornberg.Model
import Verif.Fornberg.Lagrange
import Verif.CommonLemmas
/-! The loops of `fdcoef` compute the derivatives of the Lagrange basis. -/
namespace Verif.Fornberg
open Polynomial Finset
set_option linter.unusedSectionVars false
variable {K : Type} [Field K]

/-- Loop invariant rule. -/
theorem foldlM_inv {σ : Type} (P : Nat → σ → Prop) (body : σ → Nat → Option σ) (lo n : Nat) (s : σ)
    (h0 : P lo s)
    (hs : ∀ k s, lo ≤ k → k < lo + n → P k s → ∃ s', body s k = some s' ∧ P (k+1) s') :
    ∃ s', (List.range' lo n).foldlM body s = some s' ∧ P (lo + n) s' := by
  induction n generalizing lo s with
  | zero => exact ⟨s, rfl, h0⟩
  | succ n ih =>
    obtain ⟨s1, e1, p1⟩ := hs lo s le_rfl (by omega) h0
    obtain ⟨s2, e2, p2⟩ := ih (lo+1) s1 p1 (fun k s h1 h2 => hs k s (by omega) (by omega))
    refine ⟨s2, ?_, by have : lo + (n+1) = lo + 1 + n := by omega
                       rw [this]; exact p2⟩
    rw [List.range'_succ, List.foldlM_cons, e1]
    exact e2

open Classical in
/-- The work array holding the right values on the index set `S` and zero elsewhere. -/
noncomputable def tgt (x : Nat → K) (x0 : K) (S : Nat → Nat → Nat → Prop) : W K :=
  fun a b c => if S a b c then D x x0 (a-1) (b-1) (c-1) else 0

theorem rdW_tgt (x : Nat → K) (x0 : K) (S : Nat → Nat → Nat → Prop) (a b c : Nat)
    (hin : inW a b c = true) (hS : S a b c) :
    rdW (tgt x x0 S) a b c = some (D x x0 (a-1) (b-1) (c-1)) := by
  simp [rdW, hin, tgt, hS]

theorem wrW_tgt (x : Nat → K) (x0 : K) (S S' : Nat → Nat → Nat → Prop) (a b c : Nat) (v : K)
    (hin : inW a b c = true) (hv : v = D x x0 (a-1) (b-1) (c-1))
    (hS : ∀ a' b' c', S' a' b' c' ↔ (S a' b' c' ∨ (a' = a ∧ b' = b ∧ c' = c))) :
    wrW (tgt x x0 S) a b c v = some (tgt x x0 S') := by
  classical
  rw [wrW, if_pos hin]
  congr 1
  funext a' b' c'
  by_cases h : a' = a ∧ b' = b ∧ c' = c
  · obtain ⟨rfl, rfl, rfl⟩ := h
    have : S' a' b' c' := (hS _ _ _).2 (Or.inr ⟨rfl, rfl, rfl⟩)
    simp [tgt, this, hv]
  · have : S' a' b' c' ↔ S a' b' c' := by rw [hS]; tauto
    simp [tgt, h, this]

/-- Rows done before processing row `nn`. -/
def done (M nn : Nat) (a b c : Nat) : Prop := 1 ≤ a ∧ a ≤ M ∧ 1 ≤ c ∧ c ≤ b ∧ b < nn

theorem inW_iff (a b c : Nat) : inW a b c = true ↔
    1 ≤ a ∧ a ≤ 8 ∧ 1 ≤ b ∧ b ≤ 20 ∧ 1 ≤ c ∧ c ≤ 20 := by
  simp only [inW, Bool.and_eq_true, decide_eq_true_eq, and_assoc]
  exact Iff.rfl

section
variable (x : Nat → K) (x0 : K) (N : Nat) (grid : List K) (off : Int)
  (hgrid : ∀ k, k < N → rd grid (off + (k : Int)) = some (x k))
include hgrid

theorem loopMMoff_spec (M nn nu : Nat) (hM1 : 1 ≤ M) (hM : M ≤ 8) (hnn : 2 ≤ nn) (hN : nn ≤ 20)
    (hnu : 1 ≤ nu) (hnu' : nu < nn) :
    loopMMoff (1 / (x (nn-1) - x (nu-1))) (x (nn-1) - x0) nn nu M
      (tgt x x0 (fun a b c => done M nn a b c ∨ (b = nn ∧ 1 ≤ c ∧ c < nu ∧ 1 ≤ a ∧ a ≤ M) ∨
        (b = nn ∧ c = nu ∧ a = 1))) =
      some (tgt x x0 (fun a b c => done M nn a b c ∨ (b = nn ∧ 1 ≤ c ∧ c < nu + 1 ∧ 1 ≤ a ∧ a ≤ M))) := by
  unfold loopMMoff
  obtain ⟨s', e, p⟩ := foldlM_inv (fun mm w => w = tgt x x0 (fun a b c => done M nn a b c ∨
      (b = nn ∧ 1 ≤ c ∧ c < nu ∧ 1 ≤ a ∧ a ≤ M) ∨ (b = nn ∧ c = nu ∧ 1 ≤ a ∧ a < mm)))
    (fun w mm => do
      let a ← rdW w mm (nn - 1) nu
      let b ← rdW w (mm - 1) (nn - 1) nu
      wrW w mm nn nu ((1 / (x (nn-1) - x (nu-1))) * ((x (nn-1) - x0) * a -
        ((mm - 1 : Nat) : K) * b))) 2 (M-1)
    (tgt x x0 (fun a b c => done M nn a b c ∨ (b = nn ∧ 1 ≤ c ∧ c < nu ∧ 1 ≤ a ∧ a ≤ M) ∨
        (b = nn ∧ c = nu ∧ a = 1))) (by
      congr 1
      funext a b c
      apply propext
      unfold done
      omega) (by
      rintro mm w h1 h2 rfl
      have r1 : inW mm (nn-1) nu = true := (inW_iff _ _ _).2 (by omega)
      have r2 : inW (mm-1) (nn-1) nu = true := (inW_iff _ _ _).2 (by omega)
      have r3 : inW mm nn nu = true := (inW_iff _ _ _).2 (by omega)
      refine ⟨_, ?_, rfl⟩
      rw [rdW_tgt _ _ _ _ _ _ r1 (Or.inl (by unfold done; omega)),
        rdW_tgt _ _ _ _ _ _ r2 (Or.inl (by unfold done; omega))]
      simp only [Option.bind_eq_bind, Option.bind_some]
      apply wrW_tgt _ _ _ _ _ _ _ _ r3
      · obtain ⟨n, rfl⟩ : ∃ n, nn = n + 2 := ⟨nn - 2, by omega⟩
        have := D_off x x0 (mm-1) n (nu-1) (by omega)
        have e1 : n + 2 - 1 = n + 1 := by omega
        have e2 : n + 1 - 1 = n := by omega
        rw [e1, e2, this]
      · intro a' b' c'
        unfold done
        omega)
  rw [e, p]
  congr 2
  funext a b c
  apply propext
  unfold done
  omega

theorem loopMMdiag_spec (M nn : Nat) (hM1 : 1 ≤ M) (hM : M ≤ 8) (hnn : 2 ≤ nn) (hN : nn ≤ 20) :
    loopMMdiag (cprod x (nn-2) / cprod x (nn-1)) (x (nn-2) - x0) nn M
      (tgt x x0 (fun a b c => done M nn a b c ∨ (b = nn ∧ 1 ≤ c ∧ c < nn ∧ 1 ≤ a ∧ a ≤ M) ∨
        (b = nn ∧ c = nn ∧ a = 1))) =
      some (tgt x x0 (done M (nn+1))) := by
  unfold loopMMdiag
  obtain ⟨s', e, p⟩ := foldlM_inv (fun mm w => w = tgt x x0 (fun a b c => done M nn a b c ∨
      (b = nn ∧ 1 ≤ c ∧ c < nn ∧ 1 ≤ a ∧ a ≤ M) ∨ (b = nn ∧ c = nn ∧ 1 ≤ a ∧ a < mm)))
    (fun w mm => do
      let b ← rdW w (mm - 1) (nn - 1) (nn - 1)
      let a ← rdW w mm (nn - 1) (nn - 1)
      wrW w mm nn nn ((cprod x (nn-2) / cprod x (nn-1)) * (((mm - 1 : Nat) : K) * b -
        (x (nn-2) - x0) * a))) 2 (M-1)
    (tgt x x0 (fun a b c => done M nn a b c ∨ (b = nn ∧ 1 ≤ c ∧ c < nn ∧ 1 ≤ a ∧ a ≤ M) ∨
        (b = nn ∧ c = nn ∧ a = 1))) (by
      congr 1
      funext a b c
      apply propext
      unfold done
      omega) (by
      rintro mm w h1 h2 rfl
      have r1 : inW mm (nn-1) (nn-1) = true := (inW_iff _ _ _).2 (by omega)
      have r2 : inW (mm-1) (nn-1) (nn-1) = true := (inW_iff _ _ _).2 (by omega)
      have r3 : inW mm nn nn = true := (inW_iff _ _ _).2 (by omega)
      refine ⟨_, ?_, rfl⟩
      rw [rdW_tgt _ _ _ _ _ _ r2 (Or.inl (by unfold done; omega)),
        rdW_tgt _ _ _ _ _ _ r1 (Or.inl (by unfold done; omega))]
      simp only [Option.bind_eq_bind, Option.bind_some]
      apply wrW_tgt _ _ _ _ _ _ _ _ r3
      · obtain ⟨n, rfl⟩ : ∃ n, nn = n + 2 := ⟨nn - 2, by omega⟩
        have := D_diag x x0 (mm-1) n
        have e1 : n + 2 - 1 = n + 1 := by omega
        have e2 : n + 1 - 1 = n := by omega
        have e3 : n + 2 - 2 = n := by omega
        rw [e1, e2, e3, this]
      · intro a' b' c'
        unfold done
        omega)
  rw [e, p]
  congr 2
  funext a b c
  apply propext
  unfold done
  omega

theorem stepNn_spec (M nn : Nat) (hM1 : 1 ≤ M) (hM : M ≤ 8) (hnn : 2 ≤ nn) (hN : nn ≤ 20)
    (hNN : nn ≤ N) :
    stepNn grid off x0 M (tgt x x0 (done M nn), cprod x (nn-2)) nn =
      some (tgt x x0 (done M (nn+1)), cprod x (nn-1)) := by
  obtain ⟨n, rfl⟩ : ∃ n, nn = n + 2 := ⟨nn - 2, by omega⟩
  unfold stepNn
  have e1 : n + 2 - 1 = n + 1 := by omega
  have e2 : n + 2 - 2 = n := by omega
  have gn : ∀ k : Nat, 1 ≤ k → k ≤ N → rd grid (off + (k : Int) - 1) = some (x (k-1)) := by
    intro k h1 h2
    rw [← hgrid (k-1) (by omega)]
    congr 1; omega
  obtain ⟨s', e, p⟩ := foldlM_inv (fun nu (st : W K × K) =>
      st = (tgt x x0 (fun a b c => done M (n+2) a b c ∨ (b = n+2 ∧ 1 ≤ c ∧ c < nu ∧ 1 ≤ a ∧ a ≤ M)),
        ∏ j ∈ range (nu-1), (x (n+1) - x j)))
    (stepNu grid off x0 M (n+2)) 1 (n+1) (tgt x x0 (done M (n+2)), 1) (by
      refine Prod.mk.injEq _ _ _ _ ▸ ⟨?_, ?_⟩
      · congr 1
        funext a b c
        apply propext
        unfold done
        omega
      · simp) (by
      rintro nu st h1 h2 rfl
      refine ⟨_, ?_, rfl⟩
      unfold stepNu
      rw [gn (n+2) (by omega) hNN, gn nu (by omega) (by omega)]
      simp only [Option.bind_eq_bind, Option.bind_some]
      have r1 : inW 1 (n+1) nu = true := (inW_iff _ _ _).2 (by omega)
      have r3 : inW 1 (n+2) nu = true := (inW_iff _ _ _).2 (by omega)
      rw [e1, rdW_tgt _ _ _ _ _ _ r1 (Or.inl (by unfold done; omega))]
      simp only [Option.bind_some]
      rw [wrW_tgt x x0 _ (fun a b c => done M (n+2) a b c ∨
        (b = n+2 ∧ 1 ≤ c ∧ c < nu ∧ 1 ≤ a ∧ a ≤ M) ∨ (b = n+2 ∧ c = nu ∧ a = 1)) 1 (n+2) nu _ r3]
      · simp only [Option.bind_some]
        have hl := loopMMoff_spec x x0 N grid off hgrid M (n+2) nu hM1 hM (by omega) hN h1 (by omega)
        rw [e1] at hl
        rw [hl]
        simp only [Option.bind_some, Option.pure_def]
        congr 2
        have : nu + 1 - 1 = (nu - 1) + 1 := by omega
        rw [this, prod_range_succ]
      · have := D_off x x0 0 n (nu-1) (by omega)
        have e5 : n + 2 - 1 = n + 1 := by omega
        rw [e5]
        simp only [Nat.sub_self, Nat.add_sub_cancel]
        rw [this]; push_cast; ring
      · intro a' b' c'
        unfold done
        omega)
  rw [e1]
  simp only at p ⊢
  rw [e, p]
  simp only [Option.bind_eq_bind, Option.bind_some]
  have hg2 : rd grid (off + ((n+2 : Nat) : Int) - 2) = some (x n) := by
    rw [← hgrid n (by omega)]; congr 1; push_cast; omega
  rw [hg2]
  simp only [Option.bind_some]
  have r1 : inW 1 (n+1) (n+1) = true := (inW_iff _ _ _).2 (by omega)
  have r3 : inW 1 (n+2) (n+2) = true := (inW_iff _ _ _).2 (by omega)
  rw [rdW_tgt _ _ _ _ _ _ r1 (Or.inl (by unfold done; omega))]
  simp only [Option.bind_some]
  have e4 : 1 + (n + 1) - 1 = n + 1 := by omega
  have ecp : ∏ j ∈ range (n+1), (x (n+1) - x j) = cprod x (n+1) := rfl
  rw [e4, ecp, e2]
  rw [wrW_tgt x x0 _ (fun a b c => done M (n+2) a b c ∨
    (b = n+2 ∧ 1 ≤ c ∧ c < n+2 ∧ 1 ≤ a ∧ a ≤ M) ∨ (b = n+2 ∧ c = n+2 ∧ a = 1)) 1 (n+2) (n+2) _ r3]
  · simp only [Option.bind_some]
    have hl := loopMMdiag_spec x x0 N grid off hgrid M (n+2) hM1 hM (by omega) hN
    rw [e2, e1] at hl
    rw [hl]
    rfl
  · have := D_diag x x0 0 n
    have e5 : n + 2 - 1 = n + 1 := by omega
    rw [e5]
    simp only [Nat.sub_self, Nat.add_sub_cancel]
    rw [this]; push_cast; ring
  · intro a' b' c'
    unfold done
    omega

theorem mapM_some {β : Type} (L : List Nat) (g : Nat → Option β) (v : Nat → β)
    (h : ∀ k ∈ L, g k = some (v k)) : L.mapM g = some (L.map v) := by
  induction L with
  | nil => rfl
  | cons k L ih =>
    rw [List.mapM_cons, h k (by simp), ih (fun k hk => h k (by simp [hk]))]
    rfl

/-- The weights are the derivatives of the Lagrange basis polynomials at `x0`. -/
theorem fdcoef_eq (cs mord nord : Nat) (h1 : 1 ≤ mord) (h8 : mord ≤ 8)
    (hn1 : 1 ≤ nord) (hn : nord ≤ 20) (hcs : nord ≤ cs) (hN : nord ≤ N) :
    fdcoef cs mord nord x0 grid off = some (tab nord (fun v => D x x0 (mord-1) (nord-1) v)) := by
  unfold fdcoef
  set M := min nord mord with hMdef
  have hM1 : 1 ≤ M := by omega
  have hM8 : M ≤ 8 := by omega
  have w0 : wrW (fun _ _ _ => (0 : K)) 1 1 1 1 = some (tgt x x0 (done M 2)) := by
    classical
    rw [wrW, if_pos ((inW_iff _ _ _).2 (by omega))]
    congr 1
    funext a b c
    by_cases h : a = 1 ∧ b = 1 ∧ c = 1
    · obtain ⟨rfl, rfl, rfl⟩ := h
      have hd : done M 2 1 1 1 := by unfold done; omega
      simp [tgt, hd, D_zero]
    · simp only [h, if_false, tgt]
      split
      · rename_i hd
        unfold done at hd
        have hb : b = 1 := by omega
        have hc : c = 1 := by omega
        have ha : a - 1 ≠ 0 := by omega
        subst hb; subst hc
        simp [D_zero, ha]
      · rfl
  rw [w0]
  simp only [Option.bind_eq_bind, Option.bind_some]
  obtain ⟨s', e, p⟩ := foldlM_inv (fun nn (st : W K × K) => st = (tgt x x0 (done M nn), cprod x (nn-2)))
    (stepNn grid off x0 M) 2 (nord-1) (tgt x x0 (done M 2), 1) (by simp [cprod]) (by
      rintro nn st a1 a2 rfl
      refine ⟨_, stepNn_spec x x0 N grid off hgrid M nn hM1 hM8 a1 (by omega) (by omega), ?_⟩
      have : nn + 1 - 2 = nn - 1 := by omega
      rw [this])
  rw [e, p]
  simp only [Option.bind_some]
  rw [mapM_some (K := K) x N grid off hgrid _ _ (fun nu => D x x0 (mord-1) (nord-1) (nu-1))]
  · congr 1
    rw [tab, List.range_eq_range', List.range'_eq_map_range, List.range'_eq_map_range]
    simp
  · intro nu hnu
    rw [List.mem_range'_1] at hnu
    have r : inW mord nord nu = true := (inW_iff _ _ _).2 (by omega)
    have hle : nu ≤ cs := by omega
    by_cases hc : mord ≤ nord
    · rw [rdW_tgt _ _ _ _ _ _ r (by unfold done; omega)]
      simp [hle]
    · have : tgt x x0 (done M (2 + (nord - 1))) mord nord nu = 0 := by
        classical
        rw [tgt, if_neg]
        unfold done; omega
      rw [rdW, if_pos r, this]
      simp [hle, D_high x x0 (mord-1) (nord-1) (nu-1) (by omega)]

end
end Verif.Fornberg
