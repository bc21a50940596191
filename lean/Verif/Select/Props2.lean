import Verif.Select.Props
/-! # Properties C53 (TAR tables), C77 (structure files) and C78 (loading of modes) -/
namespace Verif.Select
open Verif.Inlist (Str)
open Verif.Store (dec decNat)
open Spec

/-! ## TAR tables -/

theorem sgnval_nonneg {n : ℤ} (h : 0 ≤ n) : sgnval n = signed n := by
  rw [sgnval, signed, if_pos h, if_pos h, dec, if_neg (by omega)]

/-- A negative number gets two minus signs. -/
theorem sgnval_neg {n : ℤ} (h : n < 0) : sgnval n = '-' :: signed n := by
  rw [sgnval, signed, if_neg (by omega), if_neg (by omega), dec, if_pos h]

theorem signed_chars (n : ℤ) : ∀ c ∈ signed n, c ≠ '.' ∧ c ≠ '/' := by
  have key : ∀ v < 10, Nat.digitChar v ≠ '.' ∧ Nat.digitChar v ≠ '/' := by decide
  intro c hc
  rcases List.mem_cons.1 hc with h | h
  · rw [h]; split <;> decide
  · unfold decNat at h
    split at h
    · simp only [List.mem_singleton] at h; rw [h]; decide
    · obtain ⟨v, hv, rfl⟩ := List.mem_map.1 h
      exact key v (Nat.digits_lt_base (by norm_num) (List.mem_reverse.1 hv))

/-- The path of the table for (l, m) is that of the table of GYRE with azimuthal order m and index
k = l − |m| exactly when neither m nor k is negative. -/
theorem C53_path_partial (base : Str) (l m : ℤ) : tarPath base l m = gyreTable base m (l - |m|) ↔ 0 ≤ m ∧ |m| ≤ l := by
  have hk : getK l m = l - |m| := rfl
  unfold tarPath gyreTable
  rw [hk]
  have h5 : ".h5".toList = ['.', 'h', '5'] := by decide
  by_cases hm : 0 ≤ m
  · rw [sgnval_nonneg hm]
    by_cases hk : |m| ≤ l
    · rw [sgnval_nonneg (by omega)]; simp [hm, hk]
    · rw [sgnval_neg (by omega)]
      refine ⟨fun h => absurd (congrArg List.length h) ?_, fun h => absurd h.2 hk⟩
      simp
  · rw [sgnval_neg (by omega)]
    refine ⟨fun h => absurd (congrArg List.length h) ?_, fun h => absurd h.1 hm⟩
    by_cases hk : |m| ≤ l
    · rw [sgnval_nonneg (by omega)]; simp
    · rw [sgnval_neg (by omega)]; simp; omega

/-- For retrograde modes (m < 0) the table that is asked for has two minus signs in its name: if the
directory holds only tables of GYRE, the program exits, although the table exists. -/
theorem C53_retrograde_wrong (isFile : Str → Bool) (base : Str) (l m : ℤ) (hm : m < 0)
    (hg : ∀ p, isFile p = true → ∃ m' k', p = gyreTable base m' k') : retrieveTar isFile base l m = none := by
  unfold retrieveTar
  rw [if_neg]
  intro h
  obtain ⟨m', k', e⟩ := hg _ h
  unfold tarPath gyreTable at e
  rw [sgnval_neg hm] at e
  simp only [List.append_assoc, List.append_cancel_left_eq] at e
  -- the first characters after the prefix
  have e1 := (List.cons.inj e)
  have : '-' :: decNat m.natAbs = signed m := by rw [signed, if_neg (by omega)]
  have e2 := e1.2
  rw [← this] at e2
  have h0 : ∀ c ∈ decNat m'.natAbs, c ≠ '-' := by
    intro c hc; exact (Verif.Store.decNat_chars _ c hc).2.1
  have hne := decNat_ne m'.natAbs
  cases hd : decNat m'.natAbs with
  | nil => exact hne hd
  | cons x t =>
    rw [hd] at e2
    exact h0 x (by rw [hd]; simp) (List.cons.inj e2).1.symm

/-- For prograde and axisymmetric modes the table is found if it exists. -/
theorem C53_found (isFile : Str → Bool) (base : Str) (l m : ℤ) (hm : 0 ≤ m) (hk : |m| ≤ l) :
    retrieveTar isFile base l m = if isFile (gyreTable base m (l - |m|)) then some (gyreTable base m (l - |m|)) else none := by
  unfold retrieveTar
  rw [(C53_path_partial base l m).2 ⟨hm, hk⟩]

/-- For prograde modes whose tables are there, the eigenvalue of each is read from the table of GYRE for its orders, at its
own spin parameter. -/
theorem C53_lambdas {α β : Type} (isFile : Str → Bool) (table : Str → α → β) (base : Str) (l m : List ℤ) (ν : List α)
    (hl : l.length = m.length) (hν : ν.length = m.length)
    (h : ∀ i (hi : i < m.length), 0 ≤ m[i] ∧ m[i] ≤ l[i] ∧ isFile (gyreTable base m[i] (l[i] - |m[i]|)) = true) :
    ∃ r, getLambdas isFile table base l m ν = some r ∧ r.length = m.length ∧
      ∀ i (hi : i < m.length) (hr : i < r.length), r[i] = table (gyreTable base m[i] (l[i] - |m[i]|)) ν[i] := by
  induction m generalizing l ν with
  | nil =>
    have := List.eq_nil_of_length_eq_zero hl
    subst this
    exact ⟨[], rfl, rfl, by simp⟩
  | cons a m ih =>
    match l, ν, hl, hν with
    | b :: l, w :: ν, hl, hν =>
      obtain ⟨r, h1, h2, h3⟩ := ih l ν (by simpa using hl) (by simpa using hν) (fun i hi => h (i + 1) (by simpa using hi))
      have h0 := h 0 (by simp)
      simp only [List.getElem_cons_zero] at h0
      have hf := C53_found isFile base b a h0.1 (by rw [abs_of_nonneg h0.1]; exact h0.2.1)
      rw [if_pos h0.2.2] at hf
      refine ⟨table (gyreTable base a (b - |a|)) w :: r, ?_, by simp [h2], ?_⟩
      · unfold getLambdas at h1 ⊢
        rw [List.zip_cons_cons, List.zip_cons_cons, List.mapM_cons, h1]
        simp [hf]
      · intro i hi hr
        cases i with
        | zero => rfl
        | succ i => exact h3 i (by simpa using hi) (by simpa using hr)

example : ∃ r, getLambdas (fun _ => true) (fun f (x : ℕ) => (f, x)) [] [2, 1] [1, 0] [7, 8] = some r ∧ r.length = 2 := by
  obtain ⟨r, h1, h2, -⟩ := C53_lambdas (fun _ => true) (fun f (x : ℕ) => (f, x)) [] [2, 1] [1, 0] [7, 8] rfl rfl
    (by intro i hi; have : i = 0 ∨ i = 1 := by simp at hi; omega
        rcases this with rfl | rfl <;> simp)
  exact ⟨r, h1, h2⟩

/-- Different modes have different tables. -/
theorem C53_distinct (base : Str) (l m l' m' : ℤ) (h : tarPath base l m = tarPath base l' m') : l = l' ∧ m = m' := by
  have hs : ∀ n : ℤ, '.' ∉ sgnval n := by
    intro n hn
    by_cases h : 0 ≤ n
    · rw [sgnval_nonneg h] at hn; exact (signed_chars n _ hn).1 rfl
    · rw [sgnval_neg (by omega)] at hn
      rcases List.mem_cons.1 hn with h | h
      · revert h; decide
      · exact (signed_chars n _ h).1 rfl
  have inj : ∀ a b : ℤ, sgnval a = sgnval b → a = b := by
    intro a b e
    have hd : dec a = dec b := by
      unfold sgnval at e
      split at e <;> split at e
      · exact (List.cons.inj e).2
      · exact absurd (List.cons.inj e).1 (by decide)
      · exact absurd (List.cons.inj e).1 (by decide)
      · exact (List.cons.inj e).2
    exact Verif.Store.dec_inj hd
  unfold tarPath at h
  have ek : ".k".toList = ['.', 'k'] := by decide
  have h1 := List.append_cancel_right h
  rw [ek] at h1
  have hK : ∀ n : ℤ, '.' ∉ 'k' :: sgnval n := fun n hn => by
    rcases List.mem_cons.1 hn with h | h
    · revert h; decide
    · exact hs n h
  simp only [List.append_assoc, List.cons_append, List.nil_append] at h1
  have h2 := Verif.Store.last_sep (s := '.') (r := base ++ ("/data/tar/tar_fit.m".toList ++ sgnval m)) (r' := base ++ ("/data/tar/tar_fit.m".toList ++ sgnval m'))
    (a := 'k' :: sgnval (getK l m)) (a' := 'k' :: sgnval (getK l' m')) (hK _) (hK _) (by simpa using h1)
  have hm := inj m m' (by simpa using h2.1)
  have hk := inj _ _ (List.cons.inj h2.2).2
  simp only [getK] at hk
  rw [hm] at hk
  exact ⟨by omega, hm⟩

example : tarPath "g".toList 2 2 = "g/data/tar/tar_fit.m+2.k+0.h5".toList := by decide
example : tarPath "g".toList 2 (-1) = "g/data/tar/tar_fit.m--1.k+1.h5".toList := by decide

/-! ## Structure files -/

theorem plus_isSome {β : Type} (k : Str → Option β) (s : Str) (hn : '\n' ∉ s) :
    (greedyPlus k s).isSome = true ↔ ∃ a r, s = a ++ r ∧ a ≠ [] ∧ (k r).isSome = true := by
  cases s with
  | nil =>
    refine iff_of_false (by simp [greedyPlus]) ?_
    rintro ⟨a, r, e, ha, _⟩
    exact absurd (List.append_eq_nil_iff.1 e.symm).1 ha
  | cons x s =>
    have hx : x ≠ '\n' := fun h => hn (by simp [h])
    rw [greedyPlus, if_neg hx, star_isSome]
    constructor
    · rintro ⟨a, r, rfl, _, h⟩; exact ⟨x :: a, r, rfl, by simp, h⟩
    · rintro ⟨a, r, e, ha, h⟩
      cases a with
      | nil => exact absurd rfl ha
      | cons y a =>
        have e' := (List.cons.inj e).2
        exact ⟨a, r, e', fun h' => hn (by rw [e']; simp [h']), h⟩

theorem extraOk_iff (name : Str) (extra : Extra) : extraOk name extra = some true ↔ AllIn name extra := by
  cases extra <;> simp [extraOk, AllIn]

/-- What the two selectors of structure files look at: the suffix after a dot anywhere in the name but at its start, and (for
MESA profiles) the word gyre or GYRE anywhere but at its start. -/
theorem mesaSelect_iff (suf name : Str) (extra : Extra) (hn : '\n' ∉ name) :
    mesaSelect suf name extra = some true ↔ extraOk name extra = some true ∧
      (∃ a r, name = a ++ '.' :: suf ++ r ∧ a ≠ []) ∧
      ¬ ∃ a r, a ≠ [] ∧ (name = a ++ "gyre".toList ++ r ∨ name = a ++ "GYRE".toList ++ r) := by
  have e1 : "gyre".toList = ['g', 'y', 'r', 'e'] := by decide
  have e2 : "GYRE".toList = ['G', 'Y', 'R', 'E'] := by decide
  have k1 : (greedyPlus (suffixAt suf) name).isSome = true ↔ ∃ a r, name = a ++ '.' :: suf ++ r ∧ a ≠ [] := by
    rw [plus_isSome _ _ hn]
    constructor
    · rintro ⟨a, r, rfl, ha, h⟩
      unfold suffixAt at h
      split at h
      · next hp => obtain ⟨t, rfl⟩ := hp; exact ⟨a, t, by simp, ha⟩
      · cases h
    · rintro ⟨a, r, rfl, ha⟩
      exact ⟨a, '.' :: suf ++ r, by simp, ha, by rw [suffixAt, if_pos ⟨r, rfl⟩]; rfl⟩
  have k2 : (greedyPlus gyreAt name).isSome = true ↔
      ∃ a r, a ≠ [] ∧ (name = a ++ "gyre".toList ++ r ∨ name = a ++ "GYRE".toList ++ r) := by
    rw [plus_isSome _ _ hn, e1, e2]
    constructor
    · rintro ⟨a, r, rfl, ha, h⟩
      unfold gyreAt at h
      split at h
      · next hp =>
        rcases hp with ⟨t, rfl⟩ | ⟨t, rfl⟩
        · exact ⟨a, t, ha, Or.inl (by simp)⟩
        · exact ⟨a, t, ha, Or.inr (by simp)⟩
      · cases h
    · rintro ⟨a, r, ha, h | h⟩
      · exact ⟨a, _, by rw [h, List.append_assoc], ha, by rw [gyreAt, if_pos (Or.inl ⟨r, rfl⟩)]; rfl⟩
      · exact ⟨a, _, by rw [h, List.append_assoc], ha, by rw [gyreAt, if_pos (Or.inr ⟨r, rfl⟩)]; rfl⟩
  rw [← k1, ← k2]
  unfold mesaSelect
  cases extraOk name extra with
  | none => simp
  | some b => cases b <;> cases h1 : (greedyPlus (suffixAt suf) name) <;> cases h2 : (greedyPlus gyreAt name) <;> simp

/-- A profile with the suffix asked for, the word gyre nowhere in its name, and the additional substrings in it is selected.
(Full statement: exactly those are selected; see `C77_suffix_inside_wrong` and `C77_gyre_first_wrong`.) -/
theorem C77_selected_partial (suf a : Str) (extra : Extra) (hn : '\n' ∉ a ++ '.' :: suf) (ha : a ≠ [])
    (h1 : ¬ "gyre".toList <:+: a ++ '.' :: suf) (h2 : ¬ "GYRE".toList <:+: a ++ '.' :: suf) (he : AllIn (a ++ '.' :: suf) extra) :
    mesaSelect suf (a ++ '.' :: suf) extra = some true := by
  rw [mesaSelect_iff _ _ _ hn]
  refine ⟨(extraOk_iff _ _).2 he, ⟨a, [], by simp, ha⟩, ?_⟩
  rintro ⟨b, r, _, h | h⟩
  · exact h1 ⟨b, r, h.symm⟩
  · exact h2 ⟨b, r, h.symm⟩

/-- A file without a dot followed by the suffix, or with the word gyre or GYRE inside its name, is not
selected, and one that lacks an additional substring is not selected either. -/
theorem C77_rejected (suf name : Str) (extra : Extra) (hn : '\n' ∉ name)
    (h : ¬ '.' :: suf <:+: name ∨ (∃ a r, a ≠ [] ∧ name = a ++ "gyre".toList ++ r) ∨ (∃ a r, a ≠ [] ∧ name = a ++ "GYRE".toList ++ r) ∨
      ¬ AllIn name extra) : mesaSelect suf name extra ≠ some true := by
  rw [ne_eq, mesaSelect_iff _ _ _ hn]
  rintro ⟨he, ⟨a, r, e, _⟩, hg⟩
  rcases h with h | ⟨a, r, ha, h⟩ | ⟨a, r, ha, h⟩ | h
  · exact h ⟨a, r, e.symm⟩
  · exact hg ⟨a, r, ha, Or.inl h⟩
  · exact hg ⟨a, r, ha, Or.inr h⟩
  · exact h ((extraOk_iff _ _).1 he)

/-- A polytrope model is selected exactly if the suffix follows a dot that is not the first character and the additional
substrings, in a list or a tuple, are in its name. -/
theorem C77_polytrope (suf name : Str) (extra : Extra) (hn : '\n' ∉ name) :
    polySelect suf name extra = some true ↔ AllIn name extra ∧ ∃ a r, name = a ++ '.' :: suf ++ r ∧ a ≠ [] := by
  have k1 : (greedyPlus (suffixAt suf) name).isSome = true ↔ ∃ a r, name = a ++ '.' :: suf ++ r ∧ a ≠ [] := by
    rw [plus_isSome _ _ hn]
    constructor
    · rintro ⟨a, r, rfl, ha, h⟩
      unfold suffixAt at h
      split at h
      · next hp => obtain ⟨t, rfl⟩ := hp; exact ⟨a, t, by simp, ha⟩
      · cases h
    · rintro ⟨a, r, rfl, ha⟩
      exact ⟨a, '.' :: suf ++ r, by simp, ha, by rw [suffixAt, if_pos ⟨r, rfl⟩]; rfl⟩
  rw [← k1, ← extraOk_iff]
  unfold polySelect
  cases extraOk name extra with
  | none => simp
  | some b => cases b <;> simp

/-- Whenever the additional substrings are not a plain string, every profile is either selected or not: no exception. -/
theorem C77_decided (suf name : Str) (extra : Extra) (h : ∀ s, extra ≠ .str s) :
    (∃ b, mesaSelect suf name extra = some b) ∧ ∃ b, polySelect suf name extra = some b := by
  cases extra with
  | str s => exact absurd rfl (h s)
  | none => exact ⟨⟨_, rfl⟩, ⟨_, rfl⟩⟩
  | list l => exact ⟨⟨_, rfl⟩, ⟨_, rfl⟩⟩
  | tuple l => exact ⟨⟨_, rfl⟩, ⟨_, rfl⟩⟩

example : polySelect "h5".toList "polytrope_3.h5".toList (.list ["tro".toList]) = some true := by decide
example : polySelect "h5".toList "polytrope_3.h5".toList (.list ["tri".toList, "tro".toList]) = some false := by decide

/-- The suffix need not be at the end: whatever follows it, as in a backup copy, the file is selected too. With a profile and
such a copy of it in the directory, the profile cannot be loaded. -/
theorem C77_suffix_inside_wrong {D : Type} (upper : Str → Str) (suf a more : Str) (x y : D) (hn : '\n' ∉ a ++ '.' :: suf ++ more) (ha : a ≠ [])
    (h1 : ¬ "gyre".toList <:+: a ++ '.' :: suf ++ more) (h2 : ¬ "GYRE".toList <:+: a ++ '.' :: suf ++ more) :
    mesaSelect suf (a ++ '.' :: suf ++ more) .none = some true ∧
      loadMesa upper suf .none [⟨a ++ '.' :: suf, true, x⟩, ⟨a ++ '.' :: suf ++ more, true, y⟩] = none := by
  have hs : mesaSelect suf (a ++ '.' :: suf ++ more) .none = some true := by
    rw [mesaSelect_iff _ _ _ hn]
    refine ⟨rfl, ⟨a, more, rfl, ha⟩, ?_⟩
    rintro ⟨b, r, _, h | h⟩
    · exact h1 ⟨b, r, h.symm⟩
    · exact h2 ⟨b, r, h.symm⟩
  have hs' : mesaSelect suf (a ++ '.' :: suf) .none = some true := by
    refine C77_selected_partial suf a .none (fun h => hn (List.mem_append_left _ h)) ha (fun ⟨b, r, h⟩ => h1 ⟨b, r ++ more, ?_⟩)
      (fun ⟨b, r, h⟩ => h2 ⟨b, r ++ more, ?_⟩) trivial
    · rw [← h]; simp
    · rw [← h]; simp
  refine ⟨hs, ?_⟩
  unfold loadMesa readDir
  simp only [hs', if_true]
  cases fileSuffix (a ++ '.' :: suf) with
  | none => rfl
  | some s =>
    dsimp only
    split
    · next hb =>
      split at hb
      · unfold readDir at hb
        simp only [hs, if_true] at hb
        cases hf : fileSuffix (a ++ '.' :: suf ++ more) with
        | none => rw [hf] at hb; simp at hb
        | some t =>
          rw [hf] at hb
          dsimp only at hb
          split at hb
          · simp [readDir] at hb
          · simp at hb
      · simp at hb
    · rfl

/-- A file whose name starts with gyre or GYRE, and has the word nowhere else, is selected. -/
theorem C77_gyre_first_wrong (suf b : Str) (hn : '\n' ∉ "gyre".toList ++ b ++ '.' :: suf)
    (h1 : ¬ ∃ a r, a ≠ [] ∧ "gyre".toList ++ b ++ '.' :: suf = a ++ "gyre".toList ++ r)
    (h2 : ¬ ∃ a r, a ≠ [] ∧ "gyre".toList ++ b ++ '.' :: suf = a ++ "GYRE".toList ++ r) :
    mesaSelect suf ("gyre".toList ++ b ++ '.' :: suf) .none = some true := by
  rw [mesaSelect_iff _ _ _ hn]
  refine ⟨rfl, ⟨"gyre".toList ++ b, [], by simp, ?_⟩, ?_⟩
  · have e1 : "gyre".toList = ['g', 'y', 'r', 'e'] := by decide
    rw [e1]; simp
  · rintro ⟨a, r, ha, h | h⟩
    · exact h1 ⟨a, r, ha, h⟩
    · exact h2 ⟨a, r, ha, h⟩

/-- One additional substring given as a string, and not in a list, raises an exception. -/
theorem C77_string_raises (suf name s : Str) : mesaSelect suf name (.str s) = none ∧ polySelect suf name (.str s) = none := ⟨rfl, rfl⟩

example : mesaSelect "dat".toList "M8_Xc0.09.dat".toList (.tuple ["Xc0.09".toList, "M8".toList]) = some true := by decide
example : mesaSelect "dat".toList "gyre_M8.dat".toList .none = some true := by decide
example : mesaSelect "dat".toList "M8.dat.GYRE".toList .none = some false := by decide

/-! ## Loading -/

section
variable {D : Type}

/-- The data of the selected files. -/
theorem readDir_some (upper : Str → Str) (sel : Str → Option Bool) : ∀ (dir : List (Entry D)) ds, readDir upper sel dir = some ds →
    ds = (dir.filter fun e => e.isFile && (sel e.name == some true)).map Entry.data
  | [], ds, h => by cases h; rfl
  | e :: es, ds, h => by
    unfold readDir at h
    cases hf : e.isFile with
    | false =>
      rw [hf] at h
      simp only [Bool.false_eq_true, if_false] at h
      rw [readDir_some upper sel es ds h, List.filter_cons_of_neg (by simp [hf])]
    | true =>
      rw [hf] at h
      simp only [if_true] at h
      split at h
      · cases h
      · next hs => rw [readDir_some upper sel es ds h, List.filter_cons_of_neg (by simp [hs])]
      · next hs =>
        split at h
        · cases h
        · next s hs' =>
          split at h
          · obtain ⟨ds', h', rfl⟩ := Option.map_eq_some_iff.1 h
            rw [List.filter_cons_of_pos (by simp [hf, hs]), List.map_cons, ← readDir_some upper sel es ds' h']
          · cases h

theorem readDir_isSome (upper : Str → Str) (sel : Str → Option Bool) : ∀ (dir : List (Entry D)), (readDir upper sel dir).isSome = true ↔
    ∀ e ∈ dir, e.isFile = true → ∃ b, sel e.name = some b ∧ (b = true → ∃ s, fileSuffix e.name = some s ∧ readable upper s = true)
  | [] => by simp [readDir]
  | e :: es => by
    have ih := readDir_isSome upper sel es
    rw [List.forall_mem_cons, ← ih, readDir]
    cases hf : e.isFile with
    | false => simp
    | true =>
      simp only [if_true, forall_const]
      cases hs : sel e.name with
      | none => simp
      | some b =>
        cases b with
        | false => simp
        | true =>
          simp only [Option.some.injEq]
          cases hx : fileSuffix e.name with
          | none => simp
          | some s =>
            cases hr : readable upper s with
            | false => simp [hr]
            | true => simp [hr]

theorem readModes_length (readOne : ℕ → Option (List D)) : ∀ (n i : ℕ) ds, readModes readOne i n = some ds → ds.length ≤ n ∧
    (ds.length = n → ∀ j < n, ∃ x, ds[j]? = some x ∧ readOne (i + j) = some [x])
  | 0, i, ds, h => by cases h; simp
  | n + 1, i, ds, h => by
    unfold readModes at h
    split at h
    · cases h
    · next x hx =>
      obtain ⟨ds', h', rfl⟩ := Option.map_eq_some_iff.1 h
      obtain ⟨h1, h2⟩ := readModes_length readOne n (i + 1) ds' h'
      refine ⟨by simpa using h1, fun hl j hj => ?_⟩
      cases j with
      | zero => exact ⟨x, rfl, hx⟩
      | succ j =>
        obtain ⟨y, h3, h4⟩ := h2 (by simpa using hl) j (by omega)
        exact ⟨y, by simpa using h3, by rw [← h4]; congr 1; omega⟩
    · obtain ⟨h1, _⟩ := readModes_length readOne n (i + 1) ds h
      exact ⟨by omega, fun hl => by omega⟩

theorem readModes_full (readOne : ℕ → Option (List D)) : ∀ (n i : ℕ), (∀ j < n, ∃ x, readOne (i + j) = some [x]) →
    ∃ ds, readModes readOne i n = some ds ∧ ds.length = n
  | 0, i, _ => ⟨[], rfl, rfl⟩
  | n + 1, i, h => by
    obtain ⟨x, hx⟩ := h 0 (by omega)
    obtain ⟨ds, h1, h2⟩ := readModes_full readOne n (i + 1) fun j hj => by
      obtain ⟨y, hy⟩ := h (j + 1) (by omega)
      exact ⟨y, by rw [← hy]; congr 1; omega⟩
    refine ⟨x :: ds, ?_, by simp [h2]⟩
    rw [Nat.add_zero] at hx
    simp only [readModes, hx, h1, Option.map_some]

/-- The files of the directory that are selected for a mode. -/
def Spec.selected (d : Digits) (R : Request) (extra : Extra) (dir : List (Entry D)) (i : ℕ) (g : Bool) : List (Entry D) :=
  dir.filter fun e => e.isFile && (modeSelect d R e.name extra i g == some true)

/-- If loading succeeds, there is one set of data for each mode, in the order of the modes, and that of a mode is the data of the one file
that is selected for it: modes are neither mixed up nor left out. -/
theorem C78_loaded (d : Digits) (upper : Str → Str) (R : Request) (extra : Extra) (gModes : List Bool) (dir : List (Entry D)) (ds : List D)
    (h : loadModes d upper R extra gModes dir = some ds) :
    ds.length = R.l.length ∧ ∀ i < R.l.length, ∃ g e, gModes[i]? = some g ∧ Spec.selected d R extra dir i g = [e] ∧ ds[i]? = some e.data := by
  unfold loadModes at h
  split at h
  · cases h
  · next ds' h' =>
    split at h
    · next hl =>
      cases h
      obtain ⟨_, h2⟩ := readModes_length _ _ _ _ h'
      refine ⟨hl, fun i hi => ?_⟩
      obtain ⟨x, h3, h4⟩ := h2 hl i hi
      rw [Nat.zero_add] at h4
      cases hg : gModes[i]? with
      | none => rw [readOneMode, hg] at h4; cases h4
      | some g =>
        rw [readOneMode, hg, Option.bind_some] at h4
        have := readDir_some _ _ _ _ h4
        obtain ⟨e, he, hx⟩ := List.map_eq_singleton_iff.1 this.symm
        exact ⟨g, e, rfl, he, by rw [h3, hx]⟩
    · cases h

/-- A file name with a suffix that the program can read: what follows its last dot is, in any case of the letters, one
of four words. -/
def Spec.hasReader (upper : Str → Str) (name : Str) : Prop :=
  ∃ stem suf, name = stem ++ '.' :: suf ∧ '.' ∉ suf ∧
    (upper suf = "H5".toList ∨ upper suf = "HDF5".toList ∨ upper suf = "TXT".toList ∨ upper suf = "DAT".toList)

theorem fileSuffix_split (stem suf : Str) (h : '.' ∉ suf) : fileSuffix (stem ++ '.' :: suf) = some suf := by
  unfold fileSuffix
  rw [if_pos (by simp)]
  congr 1
  rw [List.reverse_append, List.reverse_cons, List.append_assoc,
    List.takeWhile_append_of_pos (by intro c hc; simpa using fun e : c = '.' => h (e ▸ List.mem_reverse.1 hc))]
  simp

theorem split_last : ∀ name : Str, '.' ∈ name → ∃ stem suf, name = stem ++ '.' :: suf ∧ '.' ∉ suf
  | c :: cs, h => by
    by_cases g : '.' ∈ cs
    · obtain ⟨stem, suf, e, hn⟩ := split_last cs g
      exact ⟨c :: stem, suf, by rw [e]; rfl, hn⟩
    · have : c = '.' := ((List.mem_cons.1 h).resolve_right g).symm
      exact ⟨[], cs, by rw [this]; rfl, g⟩

theorem split_of_fileSuffix {name suf : Str} (h : fileSuffix name = some suf) :
    ∃ stem, name = stem ++ '.' :: suf ∧ '.' ∉ suf := by
  by_cases hm : '.' ∈ name
  · obtain ⟨stem, s, rfl, hn⟩ := split_last name hm
    rw [fileSuffix_split stem s hn] at h
    cases h
    exact ⟨stem, rfl, hn⟩
  · rw [fileSuffix, if_neg hm] at h
    cases h

/-- The files that can be read, and those that cannot. -/
theorem C78_readable (upper : Str → Str) (name : Str) :
    (∃ s, fileSuffix name = some s ∧ readable upper s = true) ↔ Spec.hasReader upper name := by
  constructor
  · rintro ⟨s, h1, h2⟩
    obtain ⟨stem, e, hn⟩ := split_of_fileSuffix h1
    exact ⟨stem, s, e, hn, by simpa [readable] using h2⟩
  · rintro ⟨stem, s, rfl, hn, h⟩
    exact ⟨s, fileSuffix_split stem s hn, by simpa [readable] using h⟩

/-- Loading succeeds when, for every mode, exactly one file is selected, and every file that is selected can be read. -/
theorem C78_succeeds (d : Digits) (upper : Str → Str) (R : Request) (extra : Extra) (gModes : List Bool) (dir : List (Entry D))
    (h : ∀ i < R.l.length, ∃ g, gModes[i]? = some g ∧ (Spec.selected d R extra dir i g).length = 1 ∧
      ∀ e ∈ dir, e.isFile = true → modeSelect d R e.name extra i g ≠ none ∧
        (modeSelect d R e.name extra i g = some true → Spec.hasReader upper e.name)) :
    ∃ ds, loadModes d upper R extra gModes dir = some ds := by
  obtain ⟨ds, h1, h2⟩ := readModes_full (readOneMode d upper R extra gModes dir) R.l.length 0 (by
    intro j hj
    obtain ⟨g, hg, hlen, hall⟩ := h j hj
    rw [Nat.zero_add, readOneMode, hg, Option.bind_some]
    have hs : (readDir upper (fun name => modeSelect d R name extra j g) dir).isSome = true := by
      rw [readDir_isSome]
      intro e he hf
      obtain ⟨h1, h2⟩ := hall e he hf
      cases hm : modeSelect d R e.name extra j g with
      | none => exact absurd hm h1
      | some b => exact ⟨b, rfl, fun hb => (C78_readable upper e.name).2 (h2 (by rw [hm, hb]))⟩
    obtain ⟨ds, hds⟩ := Option.isSome_iff_exists.1 hs
    have := readDir_some _ _ _ _ hds
    obtain ⟨e, he⟩ := List.length_eq_one_iff.1 hlen
    refine ⟨e.data, ?_⟩
    rw [hds, this]
    unfold Spec.selected at he
    rw [he]; rfl)
  exact ⟨ds, by rw [loadModes, h1]; simp [h2]⟩

/-- The result does not depend on the order in which the files are listed. -/
theorem C78_order (d : Digits) (upper : Str → Str) (R : Request) (extra : Extra) (gModes : List Bool) (dir dir' : List (Entry D)) (hp : dir.Perm dir') :
    loadModes d upper R extra gModes dir = loadModes d upper R extra gModes dir' := by
  have key : ∀ (dir dir' : List (Entry D)), dir.Perm dir' → ∀ ds, loadModes d upper R extra gModes dir = some ds →
      loadModes d upper R extra gModes dir' = some ds := by
    intro dir dir' hp ds h
    -- every mode is read with a single result from either listing
    have hone : ∀ i < R.l.length, ∃ g, ∃ e : Entry D, gModes[i]? = some g ∧ ds[i]? = some e.data ∧
        readDir upper (fun name => modeSelect d R name extra i g) dir' = some [e.data] := by
      intro i hi
      have h0 := h
      unfold loadModes at h0
      split at h0
      · cases h0
      · next ds' h' =>
        split at h0
        · next hl =>
          cases h0
          obtain ⟨x, h3, h4⟩ := (readModes_length _ _ _ _ h').2 hl i hi
          rw [Nat.zero_add] at h4
          cases hg : gModes[i]? with
          | none => rw [readOneMode, hg] at h4; cases h4
          | some g =>
            rw [readOneMode, hg, Option.bind_some] at h4
            have h5 := readDir_some _ _ _ _ h4
            obtain ⟨e, he, hx⟩ := List.map_eq_singleton_iff.1 h5.symm
            have hs : (readDir upper (fun name => modeSelect d R name extra i g) dir').isSome = true := by
              have : (readDir upper (fun name => modeSelect d R name extra i g) dir).isSome = true := by rw [h4]; rfl
              rw [readDir_isSome] at this ⊢
              exact fun e he => this e (hp.mem_iff.2 he)
            obtain ⟨ds2, hds⟩ := Option.isSome_iff_exists.1 hs
            have h6 := readDir_some _ _ _ _ hds
            have h7 := (hp.filter fun e => e.isFile && (modeSelect d R e.name extra i g == some true))
            rw [he] at h7
            rw [List.perm_singleton.1 h7.symm] at h6
            exact ⟨g, e, rfl, by rw [h3, hx], by rw [hds, h6]; rfl⟩
        · cases h0
    obtain ⟨hl, _⟩ := C78_loaded d upper R extra gModes dir ds h
    obtain ⟨ds2, h1, h2⟩ := readModes_full (readOneMode d upper R extra gModes dir') R.l.length 0 (by
        intro j hj
        obtain ⟨g, e, hg, _, hr⟩ := hone j hj
        rw [Nat.zero_add, readOneMode, hg, Option.bind_some]
        exact ⟨_, hr⟩)
    have h3 := (readModes_length _ _ _ _ h1).2 h2
    have : ds2 = ds := by
      refine List.ext_getElem? fun i => ?_
      by_cases hi : i < R.l.length
      · obtain ⟨x, hx, hr⟩ := h3 i hi
        obtain ⟨g, e, hg, hd, hr'⟩ := hone i hi
        rw [Nat.zero_add, readOneMode, hg, Option.bind_some, hr'] at hr
        rw [hx, hd]
        simp only [Option.some.injEq, List.cons.injEq, and_true] at hr
        rw [hr]
      · rw [List.getElem?_eq_none (by omega), List.getElem?_eq_none (by omega)]
    unfold loadModes
    rw [h1, this]
    simp [hl]
  cases h : loadModes d upper R extra gModes dir with
  | some ds => exact (key dir dir' hp ds h).symm
  | none =>
    cases h' : loadModes d upper R extra gModes dir' with
    | none => rfl
    | some ds => rw [key dir' dir hp.symm ds h'] at h; cases h

end

/-- ASCII digits only. -/
def asciiDigits : Digits where
  val c := if c.toNat < 128 ∧ c.isDigit then some (c.toNat - 48) else none
  ascii c h := by simp [h]

/-- Three modes in one directory, with a file for another mode. -/
example : loadModes asciiDigits (fun s => s.map Char.toUpper) ⟨[2, 2, 1], [2, 1, -1], [23, 24, 25]⟩ .none [true, true, true]
    [⟨"s_g_mode_l1m-1n+25.h5".toList, true, 3⟩, ⟨"s_g_mode_l2m+1n+24.h5".toList, true, 2⟩, ⟨"s_g_mode_l2m+2n+23.h5".toList, true, 1⟩,
     ⟨"s_g_mode_l2m-1n+24.h5".toList, true, 0⟩] = some [1, 2, 3] := by decide

end Verif.Select
