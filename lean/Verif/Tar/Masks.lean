import Verif.Tar.Zones
import Mathlib.Tactic.SplitIfs
/-! # The masks returned by `get_masking_info_tar_validity` are the zones -/
namespace Verif.Tar

theorem mem_nonzero (m : List Bool) (k : ℕ) : k ∈ nonzero m ↔ m[k]? = some true := by
  unfold nonzero
  rw [List.mem_filter, List.mem_range, List.getD_eq_getElem?_getD]
  constructor
  · rintro ⟨h, h'⟩
    rw [List.getElem?_eq_getElem h] at h' ⊢
    simpa using h'
  · intro h
    refine ⟨?_, by rw [h]; rfl⟩
    by_contra hc
    rw [List.getElem?_eq_none (by omega)] at h
    simp at h

theorem starts_lt (v : List Bool) : ∀ s ∈ starts v, s < v.length := by
  intro s hs
  obtain ⟨k, hk, rfl⟩ := List.mem_map.1 hs
  rw [mem_nonzero] at hk
  have := (List.getElem?_eq_some_iff.1 hk).1
  simp only [List.length_zipWith, List.length_dropLast, List.length_tail] at this
  omega

theorem ends_lt (v : List Bool) : ∀ e ∈ ends v, e + 1 < v.length := by
  intro s hs
  rw [ends, mem_nonzero] at hs
  have := (List.getElem?_eq_some_iff.1 hs).1
  simp only [List.length_zipWith, List.length_dropLast, List.length_tail] at this
  omega

/-- Ranges of the masks. -/
def ranges (n : ℕ) (ms : List (Option Slice)) : List (Option (ℕ × ℕ)) := ms.map (Option.map (Slice.range n))

theorem ranges_sl (n : ℕ) (A B : List ℕ) (hA : ∀ a ∈ A, a ≤ n) (hB : ∀ b ∈ B, b + 1 ≤ n) :
    ranges n (List.zipWith sl A B) = (A.zip (B.map (· + 1))).map some := by
  induction A generalizing B with
  | nil => simp [ranges]
  | cons a A ih =>
    cases B with
    | nil => simp [ranges]
    | cons b B =>
      have h := ih B (fun x hx => hA x (by simp [hx])) (fun x hx => hB x (by simp [hx]))
      have ha := hA a (by simp)
      have hb := hB b (by simp)
      simp only [ranges] at h ⊢
      simp only [List.zipWith_cons_cons, List.map_cons, h, List.zip_cons_cons]
      simp [sl, Slice.range, Nat.min_eq_left ha, Nat.min_eq_left hb]

theorem ranges_slN (n : ℕ) (A B : List ℕ) (hA : ∀ a ∈ A, a ≤ n) (hB : ∀ b ∈ B, b + 1 ≤ n) :
    ranges n (List.zipWith slN A B) = ((B.map (· + 1)).zip A).map some := by
  induction A generalizing B with
  | nil => simp [ranges]
  | cons a A ih =>
    cases B with
    | nil => simp [ranges]
    | cons b B =>
      have h := ih B (fun x hx => hA x (by simp [hx])) (fun x hx => hB x (by simp [hx]))
      have ha := hA a (by simp)
      have hb := hB b (by simp)
      simp only [ranges] at h ⊢
      simp only [List.zipWith_cons_cons, List.map_cons, h, List.zip_cons_cons]
      simp [slN, Slice.range, Nat.min_eq_left ha, Nat.min_eq_left hb]

theorem idx_zip (n : ℕ) (A B : List ℕ) (hA : ∀ a ∈ A, a < n) :
    List.zipWith (fun s e => (e + 1, s)) A B
      = ((B.map (· + 1)).zip A).map fun p => (p.1, min p.2 (n - 1)) := by
  induction A generalizing B with
  | nil => simp
  | cons a A ih =>
    cases B with
    | nil => simp
    | cons b B =>
      have h := ih B (fun x hx => hA x (by simp [hx]))
      have ha := hA a (by simp)
      simp only [List.zipWith_cons_cons, List.map_cons, h, List.zip_cons_cons]
      rw [Nat.min_eq_left (by omega)]

theorem ranges_append (n : ℕ) (a b : List (Option Slice)) : ranges n (a ++ b) = ranges n a ++ ranges n b := by
  simp [ranges]

/-- The last-zone part of a zip. -/
theorem zip_snoc {α β : Type} (A : List α) (a : α) (B : List β) (b : β) (h : A.length = B.length) :
    (A ++ [a]).zip (B ++ [b]) = A.zip B ++ [(a, b)] := by
  rw [List.zip_append h]; rfl

/-- The outcome when there is at least one transition. -/
structure Good (v : List Bool) (r : Res) : Prop where
  valid : r.valid = v
  fully : r.fully = false
  vm : ranges v.length r.vMasks = (runs v).map some
  nm : ranges v.length r.nMasks = (runsF v).map some
  idx : r.nonIdx = (runsF v).map fun p => (p.1, min p.2 (v.length - 1))
  warn : r.warn = match v.head?, v.getLast? with
    | some true, some true => .coreSurfValid
    | some false, some false => .coreSurfInvalid
    | some false, some true => .surfValid
    | _, _ => .coreValid

theorem not_head (v : List Bool) : (v.map (!·)).head? = v.head?.map (!·) := by simp
theorem not_last (v : List Bool) : (v.map (!·)).getLast? = v.getLast?.map (!·) := by simp

/-- No transition: the list is constant. -/
theorem const_of_none : ∀ (v : List Bool), starts v = [] → ends v = [] → ∃ c, ∀ x ∈ v, x = c
  | [], _, _ => ⟨true, by simp⟩
  | [c], _, _ => ⟨c, by simp⟩
  | c :: d :: l, hs, he => by
    rw [starts_cons2] at hs
    rw [ends_cons2] at he
    simp only [List.append_eq_nil_iff, List.map_eq_nil_iff] at hs he
    obtain ⟨c', hc'⟩ := const_of_none (d :: l) hs.2 he.2
    refine ⟨c', ?_⟩
    have hd := hc' d (by simp)
    have h1 := hs.1
    have h2 := he.1
    have hcd : c = d := by
      cases c <;> cases d <;> simp_all
    intro x hx
    rcases List.mem_cons.1 hx with rfl | hx
    · rw [hcd, hd]
    · exact hc' x hx

theorem zonesOf_good (rot ind v : List Bool) (ht : true ∈ v) (hf : false ∈ v) :
    ∃ r, zonesOf true rot ind v = .ok r ∧ Good v r := by
  obtain ⟨hl1, hz1⟩ := lo_hi v
  obtain ⟨hl2, hz2⟩ := lo_hi (v.map (!·))
  have hp1 := runs_pos v
  have hp2 := runs_pos (v.map (!·))
  have hne : ¬ ((starts v).length = 0 ∧ (ends v).length = 0) := by
    rintro ⟨h1, h2⟩
    obtain ⟨c, hc⟩ := const_of_none v (List.length_eq_zero_iff.1 h1) (List.length_eq_zero_iff.1 h2)
    have := hc _ ht
    have := hc _ hf
    simp_all
  have hvne : v ≠ [] := by rintro rfl; simp at ht
  have hS := starts_lt v
  have hE := ends_lt v
  unfold lo at hl1 hz1 hl2 hz2
  unfold hi at hl1 hz1 hl2 hz2
  rw [starts_not, ends_not, not_head, not_last, List.length_map] at hl2 hz2
  rw [show runs (v.map (!·)) = runsF v from rfl] at hz2
  have key : ∀ h l, v.head? = some h → v.getLast? = some l →
      ∃ r, zonesOf true rot ind v = .ok r ∧ Good v r := by
    intro h l hh hl
    rw [hh, hl] at hl1 hz1 hl2 hz2
    unfold zonesOf
    simp only [Bool.true_eq_false, if_false, if_neg hne]
    generalize hSv : starts v = S at *
    generalize hEv : ends v = E at *
    have hS' : ∀ s ∈ S, s ≤ v.length := fun s hs => (hS s hs).le
    have hE' : ∀ e ∈ E, e + 1 ≤ v.length := fun s hs => (hE s hs).le
    cases h <;> cases l <;> simp at hl1 hl2 hz1 hz2
    · -- invalid core, invalid surface
      rw [if_pos hl1]
      have hnE : E ≠ [] := by rintro rfl; simp at hl1; exact hne (by simp [hl1])
      obtain ⟨s, S', rfl⟩ : ∃ s S', S = s :: S' := by
        cases S with
        | nil => simp at hl1; exact absurd (List.length_eq_zero_iff.1 hl1.symm) hnE
        | cons s S' => exact ⟨s, S', rfl⟩
      obtain ⟨e, E', rfl⟩ : ∃ e E', E = e :: E' := by
        cases E with
        | nil => exact absurd rfl hnE
        | cons s S' => exact ⟨s, S', rfl⟩
      have hlt : s < e + 1 := hp1 (s, e + 1) (by rw [hz1]; simp)
      rw [if_neg (by simp; omega)]
      refine ⟨_, rfl, rfl, rfl, ?_, ?_, ?_, by rw [hh, hl]⟩
      · rw [hz1]; exact ranges_sl _ _ _ hS' hE'
      · rw [hz2]
        obtain ⟨F, f, hF⟩ : ∃ F f, e :: E' = F ++ [f] := ⟨_, _, (List.dropLast_append_getLast hnE).symm⟩
        rw [hF] at hE' hl1 hE ⊢
        have hlen : S'.length = F.length := by simp at hl1; omega
        simp only [List.headD_cons, List.tail_cons, List.dropLast_concat, ranges_append, List.map_append,
          List.map_cons, List.map_nil, ← List.cons_append]
        rw [zip_snoc _ _ _ _ (by simp [hlen]), ranges_slN _ _ _ (fun x hx => hS' x (by simp [hx]))
          (fun x hx => hE' x (by simp [hx]))]
        have h1 := hS' s (by simp)
        have h2 := hE' f (by simp)
        simp [ranges, Slice.range, h1, h2, List.getLastD_eq_getLast?]
      · rw [hz2]
        obtain ⟨F, f, hF⟩ : ∃ F f, e :: E' = F ++ [f] := ⟨_, _, (List.dropLast_append_getLast hnE).symm⟩
        rw [hF] at hE' hl1 hE ⊢
        have hlen : S'.length = F.length := by simp at hl1; omega
        simp only [List.headD_cons, List.tail_cons, List.dropLast_concat, List.map_append,
          List.map_cons, List.map_nil, ← List.cons_append]
        rw [zip_snoc _ _ _ _ (by simp [hlen]), idx_zip v.length _ _ (fun x hx => hS x (by simp [hx]))]
        have h1 := hS s (by simp)
        have h2 := hE f (by simp)
        simp [List.getLastD_eq_getLast?]
        omega
    · -- invalid core, valid surface
      rw [if_neg (by omega), if_pos hl1]
      obtain ⟨s, S', rfl⟩ : ∃ s S', S = s :: S' := by
        cases S with
        | nil => simp at hl1
        | cons s S' => exact ⟨s, S', rfl⟩
      refine ⟨_, rfl, rfl, rfl, ?_, ?_, ?_, by rw [hh, hl]⟩
      · rw [hz1]
        obtain ⟨F, f, hF⟩ : ∃ F f, s :: S' = F ++ [f] :=
          ⟨_, _, (List.dropLast_append_getLast (by simp)).symm⟩
        rw [hF] at hS' hl1 hS ⊢
        have hlen : F.length = E.length := by simp at hl1; omega
        simp only [List.dropLast_concat, ranges_append]
        rw [zip_snoc _ _ _ _ (by simp [hlen]), ranges_sl _ _ _ (fun x hx => hS' x (by simp [hx])) hE']
        have h1 := hS' f (by simp)
        simp [ranges, Slice.range, h1, List.getLastD_eq_getLast?]
      · rw [hz2]
        simp only [List.headD_cons, List.tail_cons, ranges_append]
        rw [ranges_slN _ _ _ (fun x hx => hS' x (by simp [hx])) hE']
        have h1 := hS' s (by simp)
        simp [ranges, Slice.range, h1]
      · rw [hz2]
        simp only [List.headD_cons, List.tail_cons]
        rw [idx_zip v.length _ _ (fun x hx => hS x (by simp [hx]))]
        have h1 := hS s (by simp)
        simp; omega
    · -- valid core, invalid surface
      rw [if_neg (by omega), if_neg (by omega), if_pos hl1]
      have hnE : E ≠ [] := by rintro rfl; simp at hl1
      obtain ⟨e, E', rfl⟩ : ∃ e E', E = e :: E' := by
        cases E with
        | nil => exact absurd rfl hnE
        | cons s S' => exact ⟨s, S', rfl⟩
      refine ⟨_, rfl, rfl, rfl, ?_, ?_, ?_, by rw [hh, hl]⟩
      · rw [hz1]
        simp only [List.headD_cons, List.tail_cons, ranges_append]
        rw [ranges_sl _ _ _ hS' (fun x hx => hE' x (by simp [hx]))]
        have h1 := hE' e (by simp)
        simp [ranges, Slice.range, h1]
      · rw [hz2]
        obtain ⟨F, f, hF⟩ : ∃ F f, e :: E' = F ++ [f] := ⟨_, _, (List.dropLast_append_getLast hnE).symm⟩
        rw [hF] at hE' hl1 hE ⊢
        have hlen : S.length = F.length := by simp at hl1; omega
        simp only [List.dropLast_concat, ranges_append, List.map_append, List.map_cons, List.map_nil]
        rw [zip_snoc _ _ _ _ (by simp [hlen]), ranges_slN _ _ _ hS' (fun x hx => hE' x (by simp [hx]))]
        have h2 := hE' f (by simp)
        simp [ranges, Slice.range, h2, List.getLastD_eq_getLast?]
      · rw [hz2]
        obtain ⟨F, f, hF⟩ : ∃ F f, e :: E' = F ++ [f] := ⟨_, _, (List.dropLast_append_getLast hnE).symm⟩
        rw [hF] at hE' hl1 hE ⊢
        have hlen : S.length = F.length := by simp at hl1; omega
        simp only [List.dropLast_concat, List.map_append, List.map_cons, List.map_nil]
        rw [zip_snoc _ _ _ _ (by simp [hlen]), idx_zip v.length _ _ hS]
        simp [List.getLastD_eq_getLast?]
    · -- valid core, valid surface
      rw [if_pos hl1]
      have hnE : E ≠ [] := by rintro rfl; simp at hl1; exact hne (by simp [hl1])
      obtain ⟨s, S', rfl⟩ : ∃ s S', S = s :: S' := by
        cases S with
        | nil => simp at hl1; exact absurd (List.length_eq_zero_iff.1 hl1.symm) hnE
        | cons s S' => exact ⟨s, S', rfl⟩
      obtain ⟨e, E', rfl⟩ : ∃ e E', E = e :: E' := by
        cases E with
        | nil => exact absurd rfl hnE
        | cons s S' => exact ⟨s, S', rfl⟩
      have hlt : e + 1 < s := hp2 (e + 1, s) (by
        rw [show runs (v.map (!·)) = runsF v from rfl, hz2]; simp)
      rw [if_pos (by simp; omega)]
      refine ⟨_, rfl, rfl, rfl, ?_, ?_, ?_, by rw [hh, hl]⟩
      · rw [hz1]
        obtain ⟨F, f, hF⟩ : ∃ F f, s :: S' = F ++ [f] :=
          ⟨_, _, (List.dropLast_append_getLast (by simp)).symm⟩
        rw [hF] at hS' hl1 hS ⊢
        have hlen : F.length = E'.length := by simp at hl1; omega
        simp only [List.headD_cons, List.tail_cons, List.dropLast_concat, ranges_append, List.map_append,
          List.map_cons, List.map_nil, ← List.cons_append]
        rw [zip_snoc _ _ _ _ (by simp [hlen]), ranges_sl _ _ _ (fun x hx => hS' x (by simp [hx]))
          (fun x hx => hE' x (by simp [hx]))]
        have h1 := hS' f (by simp)
        have h2 := hE' e (by simp)
        simp [ranges, Slice.range, h1, h2, List.getLastD_eq_getLast?]
      · rw [hz2]; exact ranges_slN _ _ _ hS' hE'
      · rw [hz2]; exact idx_zip v.length _ _ hS
  obtain ⟨x, hx⟩ : ∃ x, v.head? = some x := by
    cases v with
    | nil => exact absurd rfl hvne
    | cons a _ => exact ⟨a, rfl⟩
  obtain ⟨y, hy⟩ : ∃ y, v.getLast? = some y := ⟨_, List.getLast?_eq_some_getLast hvne⟩
  exact key x y hx hy

end Verif.Tar
