import Verif.Pairing.Lemmas
/-!
# Properties C17–C19: pairing functions
-/
namespace Verif.Pairing

/-! ## C17: Cantor pairing -/

/-- The closed form of the Cantor pairing. -/
theorem cantor_form (low : Lowest) (p : Int × Int) : ∃ t : Int,
    2 * t = (p.1 - low.val + (p.2 - low.val)) * (p.1 - low.val + (p.2 - low.val)) +
      (p.1 - low.val + (p.2 - low.val)) ∧ cantorPair p low = t + (p.2 - low.val) := by
  obtain ⟨t, ht⟩ := tri (p.1 - low.val + (p.2 - low.val))
  refine ⟨t, ht, ?_⟩
  unfold cantorPair
  simp only
  rw [cantor_val _ _ _ ht]

/-- C17 partial: the inversion recovers the pair when `lowest_integer` is a numpy integer.
Missing: plain Python integers, including the default 0 (`C17_inverse_raises`). -/
theorem C17_inverse_partial (v : Int) (p : Int × Int) (hp : v ≤ p.1 ∧ v ≤ p.2) :
    invertCantorPair (cantorPair p (.numpyInt v)) (.numpyInt v) = some p := by
  obtain ⟨t, ht, hc⟩ := cantor_form (.numpyInt v) p
  simp only [Lowest.val] at ht hc
  have hw := invert_core (p.1 - v) (p.2 - v) (by omega) (by omega) t ht
  unfold invertCantorPair
  rw [hc]
  simp only [hw]
  rw [tdiv_of_eq _ t 2 (by norm_num) ht.symm]
  simp only [tupleAdd]
  congr 1
  ext <;> simp <;> ring

/-- C17: with a plain Python integer offset (the default) the inversion always raises. -/
theorem C17_inverse_raises (z v : Int) : invertCantorPair z (.pyInt v) = none := rfl

/-- C17: different pairs (entries ≥ lowest) get different integers. -/
theorem C17_injective (low : Lowest) (p q : Int × Int) (hp : low.val ≤ p.1 ∧ low.val ≤ p.2)
    (hq : low.val ≤ q.1 ∧ low.val ≤ q.2) (h : cantorPair p low = cantorPair q low) : p = q := by
  have e : ∀ r, cantorPair r low = cantorPair r (.numpyInt low.val) := fun r => rfl
  have h1 := C17_inverse_partial low.val p hp
  have h2 := C17_inverse_partial low.val q hq
  rw [← e, h] at h1
  rw [← e] at h2
  rw [h1] at h2
  exact Option.some.inj h2

/-- C17: values are natural numbers and every natural number is reached. -/
theorem C17_bijective_range (low : Lowest) :
    (∀ p : Int × Int, low.val ≤ p.1 → low.val ≤ p.2 → 0 ≤ cantorPair p low) ∧
    ∀ z : Int, 0 ≤ z → ∃ p : Int × Int, low.val ≤ p.1 ∧ low.val ≤ p.2 ∧ cantorPair p low = z := by
  constructor
  · intro p h1 h2
    obtain ⟨t, ht, hc⟩ := cantor_form low p
    rw [hc]
    nlinarith
  · intro z hz
    obtain ⟨w, t, h0, h1, h2, h3⟩ := tri_interval z hz
    refine ⟨(w - (z - t) + low.val, z - t + low.val), by simp; omega, by simp; omega, ?_⟩
    obtain ⟨t', ht', hc⟩ := cantor_form low (w - (z - t) + low.val, z - t + low.val)
    rw [hc]
    simp only at ht' ⊢
    have e : w - (z - t) + low.val - low.val + (z - t + low.val - low.val) = w := by ring
    rw [e] at ht'
    have : t' = t := by omega
    rw [this]; ring

/-- Non-vacuity: (3, 1) with offset 1. -/
example : cantorPair (3, 1) (.numpyInt 1) = 3 ∧ (1 : Int) ≤ 3 := by decide

/-! ## C18: symmetric pairing -/

/-- C18: the order of the pair is irrelevant. -/
theorem C18_symmetric (low : Lowest) (a b : Int) :
    symmetricPair (a, b) low = symmetricPair (b, a) low := by
  unfold symmetricPair
  rcases lt_trichotomy a b with h | h | h
  · simp only [ge_iff_le]
    rw [if_neg (by omega), if_pos (by omega)]
  · subst h; rfl
  · simp only [ge_iff_le]
    rw [if_pos (by omega), if_neg (by omega)]

/-- closed form for a sorted pair -/
theorem sym_form (low : Lowest) (a b : Int) (h : a ≤ b) : ∃ t : Int,
    2 * t = (b - low.val) * (b - low.val) + (b - low.val) ∧
      symmetricPair (a, b) low = t + (a - low.val) + 1 := by
  obtain ⟨t, ht⟩ := tri (b - low.val)
  refine ⟨t, ht, ?_⟩
  unfold symmetricPair
  simp only [ge_iff_le]
  have hq : (if b ≤ a then (b, a) else (a, b)) = (a, b) := by
    split
    · have : a = b := by omega
      rw [this]
    · rfl
  rw [hq]
  simp only
  rw [tdiv_of_eq _ t 2 (by norm_num) (by rw [ht]; ring)]
  ring

/-- C18: different unordered pairs get different integers. -/
theorem C18_injective (low : Lowest) (a b c d : Int) (ha : low.val ≤ a) (hab : a ≤ b)
    (hc : low.val ≤ c) (hcd : c ≤ d)
    (h : symmetricPair (a, b) low = symmetricPair (c, d) low) : a = c ∧ b = d := by
  obtain ⟨t, ht, e1⟩ := sym_form low a b hab
  obtain ⟨s, hs, e2⟩ := sym_form low c d hcd
  rw [e1, e2] at h
  have hb : b - low.val = d - low.val := by
    have f1 := floorW_eq (t + (a - low.val)) (b - low.val) t (by omega) ht (by omega) (by omega)
    have f2 := floorW_eq (s + (c - low.val)) (d - low.val) s (by omega) hs (by omega) (by omega)
    have : t + (a - low.val) = s + (c - low.val) := by omega
    rw [this] at f1
    rw [f1] at f2; exact f2
  rw [hb] at ht
  have : t = s := by omega
  omega

/-- C18 partial: for a pair of *different* entries and a numpy offset, the inversion returns the pair in
increasing order.  Missing: equal entries (`C18_diagonal_wrong`) and Python-int offsets
(`C18_inverse_raises`). -/
theorem C18_inverse_partial (v a b : Int) (ha : v ≤ a) (hab : a < b) :
    invertSymmetricPair (symmetricPair (a, b) (.numpyInt v)) (.numpyInt v) = some (a, b) ∧
    invertSymmetricPair (symmetricPair (b, a) (.numpyInt v)) (.numpyInt v) = some (a, b) := by
  have key : invertSymmetricPair (symmetricPair (a, b) (.numpyInt v)) (.numpyInt v) = some (a, b) := by
    obtain ⟨t, ht, e⟩ := sym_form (.numpyInt v) a b (by omega)
    simp only [Lowest.val] at ht e
    obtain ⟨s, hs⟩ := tri (b - v - 1)
    have hts : t = s + (b - v) := by nlinarith
    have hw := floorW_eq (t + (a - v) + 1) (b - v) t (by omega) ht (by omega) (by omega)
    unfold invertSymmetricPair
    rw [e, hw, ]
    simp only
    rw [tdiv_of_eq _ t 2 (by norm_num) ht.symm]
    simp only [tupleAdd, Option.map_some]
    congr 1
    ext <;> simp <;> ring
  refine ⟨key, ?_⟩
  rw [C18_symmetric]; exact key

/-- C18 is FALSE on the diagonal: for equal entries `a` the inversion returns `(lowest-1, a+1)`, whose
first entry is even below the allowed range. -/
theorem C18_diagonal_wrong (v a : Int) (ha : v ≤ a) :
    invertSymmetricPair (symmetricPair (a, a) (.numpyInt v)) (.numpyInt v) = some (v - 1, a + 1) := by
  obtain ⟨t, ht, e⟩ := sym_form (.numpyInt v) a a le_rfl
  simp only [Lowest.val] at ht e
  have hw := floorW_eq (t + (a - v) + 1) (a - v + 1) (t + (a - v) + 1) (by omega) (by nlinarith)
    (by omega) (by omega)
  unfold invertSymmetricPair
  rw [e, hw]
  simp only
  rw [tdiv_of_eq _ (t + (a - v) + 1) 2 (by norm_num) (by nlinarith)]
  simp only [tupleAdd, Option.map_some]
  congr 1
  ext <;> simp
  ring

/-- C18: with a plain Python integer offset (the default) the inversion always raises. -/
theorem C18_inverse_raises (z v : Int) : invertSymmetricPair z (.pyInt v) = none := rfl

/-- Non-vacuity. -/
example : symmetricPair (5, 2) (.numpyInt 0) = 18 ∧ (0 : Int) ≤ 2 ∧ (2 : Int) < 5 := by decide

/-! ## C19: Xie pairing -/

/-- C19: the order of the pair is irrelevant. -/
theorem C19_symmetric (low : Lowest) (a b : Int) : xiePair (a, b) low = xiePair (b, a) low := by
  unfold xiePair
  rcases lt_trichotomy a b with h | h | h
  · rw [if_pos h, if_neg (by simp; omega)]
  · subst h; rfl
  · rw [if_neg (by simp; omega), if_pos h]

/-- C19 partial: for a numpy offset the inversion returns the pair in decreasing order, equal
entries included.  Missing: Python-int offsets (`C19_inverse_raises`). -/
theorem C19_inverse_partial (v a b : Int) (hb : v ≤ b) (hab : b ≤ a) :
    invertXiePair (xiePair (a, b) (.numpyInt v)) (.numpyInt v) = some (a, b) ∧
    invertXiePair (xiePair (b, a) (.numpyInt v)) (.numpyInt v) = some (a, b) := by
  have key : invertXiePair (xiePair (a, b) (.numpyInt v)) (.numpyInt v) = some (a, b) := by
    set m := a - v + 1 with hm
    set n := b - v + 1 with hn
    have hval : xiePair (a, b) (.numpyInt v) =
        ((m + n - 1) * (m + n - 1) - (m + n - 1) % 2).tdiv 4 + (m + n - |m - n|).tdiv 2 := by
      unfold xiePair
      rw [if_neg (by simp; omega)]
      rfl
    have fin : ∀ p q : Int, p = m → q = n →
        (tupleAdd (p, q) (.numpyInt v)).map (fun q => (q.1 - 1, q.2 - 1)) = some (a, b) := by
      rintro p q rfl rfl
      simp only [tupleAdd, Option.map_some]
      congr 1
      ext <;> simp <;> omega
    rcases Int.even_or_odd' (m + n - 1) with ⟨k, hk | hk⟩
    · rw [hval, xie_val_even m n k (by omega) hk]
      have hk0 : 0 ≤ k := by omega
      have hnk : n ≤ k := by omega
      have hn1 : 1 ≤ n := by omega
      unfold invertXiePair
      rw [floor_sqrt_eq (k * k + n) k hk0 (by omega) (by nlinarith)]
      simp only
      have e1 : k * k + n - k * k = n := by ring
      rw [e1, Int.sign_eq_one_of_pos (by omega), sgnAccent_nonpos _ (by omega)]
      apply fin
      · have : m = 2 * k + 1 - n := by omega
        rw [this]; ring
      · ring
    · rw [hval, xie_val_odd m n k (by omega) hk]
      have hk0 : 0 ≤ k := by omega
      have hnk : n ≤ k + 1 := by omega
      have hn1 : 1 ≤ n := by omega
      unfold invertXiePair
      by_cases hd : n = k + 1
      · rw [floor_sqrt_eq (k * k + k + n) (k + 1) (by omega) (by nlinarith) (by nlinarith)]
        simp only
        have e1 : k * k + k + n - (k + 1) * (k + 1) = 0 := by rw [hd]; ring
        rw [e1]
        apply fin
        · have : m = k + 1 := by omega
          rw [this]; simp
        · rw [hd]; simp
      · rw [floor_sqrt_eq (k * k + k + n) k hk0 (by omega) (by nlinarith [show n < k + 1 by omega])]
        simp only
        have e1 : k * k + k + n - k * k = k + n := by ring
        have e2 : k + n - k = n := by ring
        rw [e1, e2, Int.sign_eq_one_of_pos (by omega), sgnAccent_pos _ (by omega)]
        apply fin
        · have : m = 2 * k + 2 - n := by omega
          rw [this]; ring
        · ring
  exact ⟨key, by rw [C19_symmetric]; exact key⟩

/-- C19: different unordered pairs get different integers. -/
theorem C19_injective (low : Lowest) (a b c d : Int) (hb : low.val ≤ b) (hab : b ≤ a)
    (hd : low.val ≤ d) (hcd : d ≤ c)
    (h : xiePair (a, b) low = xiePair (c, d) low) : a = c ∧ b = d := by
  have e : ∀ r, xiePair r low = xiePair r (.numpyInt low.val) := fun r => rfl
  have h1 := (C19_inverse_partial low.val a b hb hab).1
  have h2 := (C19_inverse_partial low.val c d hd hcd).1
  rw [← e, h] at h1
  rw [← e] at h2
  rw [h1] at h2
  have := Option.some.inj h2
  simpa using this

/-- C19: with a plain Python integer offset the inversion always raises. -/
theorem C19_inverse_raises (z v : Int) : invertXiePair z (.pyInt v) = none := rfl

/-- Non-vacuity. -/
example : xiePair (2, 5) (.numpyInt 0) = 19 ∧ (0 : Int) ≤ 2 ∧ (2 : Int) ≤ 5 := by decide

end Verif.Pairing
