import Verif.Inlist.Props
import Mathlib.Algebra.Order.Ring.Rat
/-!
# C41: numbers in inlists, C60: quoted strings in inlists
-/
namespace Verif.Inlist

theorem contains_mem (pat s : Str) (h : contains pat s = true) : ∀ c ∈ pat, c ∈ s := by
  induction s with
  | nil =>
    simp only [contains, List.isEmpty_iff] at h
    simp [h]
  | cons x xs ih =>
    simp only [contains, Bool.or_eq_true] at h
    intro c hc
    rcases h with h | h
    · rw [List.isPrefixOf_iff_prefix] at h
      exact h.subset hc
    · exact List.mem_cons_of_mem _ (ih h c hc)

theorem contains_single (c : Char) (s : Str) : contains [c] s = true ↔ c ∈ s := by
  refine ⟨fun h => contains_mem _ _ h c (by simp), fun h => ?_⟩
  induction s with
  | nil => cases h
  | cons x xs ih =>
    simp only [contains, Bool.or_eq_true]
    rcases List.mem_cons.1 h with e | e
    · left; subst e; simp [List.isPrefixOf]
    · exact Or.inr (ih e)

theorem contains_false (pat s : Str) (c : Char) (hc : c ∈ pat) (h : c ∉ s) : contains pat s = false := by
  by_contra hn
  exact h (contains_mem pat s (by simpa using hn) c hc)

/-- Characters of decimal numbers. -/
def NumChar (c : Char) : Prop := isDig c = true ∨ c = '.' ∨ c = '-' ∨ c = 'e' ∨ c = 'E'

theorem not_numChar (c : Char) (s : Str) (hs : ∀ x ∈ s, NumChar x)
    (h : isDig c = false ∧ c ≠ '.' ∧ c ≠ '-' ∧ c ≠ 'e' ∧ c ≠ 'E') : c ∉ s := by
  intro hc
  rcases hs c hc with e | e | e | e | e
  · rw [h.1] at e; cases e
  · exact h.2.1 e
  · exact h.2.2.1 e
  · exact h.2.2.2.1 e
  · exact h.2.2.2.2 e

/-- On strings of number characters only the last two branches of the typer are left. -/
theorem typer_num (E : Ext) (s : Str) (hs : ∀ c ∈ s, NumChar c) :
    typer E s = if contains ['.'] s || floatRegex s then literalEval E s else pyInt E s := by
  have h1 := contains_false ['\''] s '\'' (by simp) (not_numChar _ s hs (by decide))
  have h2 := contains_false ['"'] s '"' (by simp) (not_numChar _ s hs (by decide))
  have h3 := contains_false "False".toList s 'F' (by decide) (not_numChar _ s hs (by decide))
  have h4 := contains_false "FALSE".toList s 'F' (by decide) (not_numChar _ s hs (by decide))
  have h5 := contains_false "True".toList s 'T' (by decide) (not_numChar _ s hs (by decide))
  have h6 := contains_false "TRUE".toList s 'T' (by decide) (not_numChar _ s hs (by decide))
  have h7 := contains_false "None".toList s 'N' (by decide) (not_numChar _ s hs (by decide))
  have h8 := contains_false ['['] s '[' (by simp) (not_numChar _ s hs (by decide))
  have h9 := contains_false ['('] s '(' (by simp) (not_numChar _ s hs (by decide))
  unfold typer
  rw [h1, h2, h3, h4, h5, h6, h7, h8, h9]
  simp

theorem digsVal_go (s : Str) (a : Nat) :
    s.foldl (fun a c => 10 * a + digVal c) a = a * 10 ^ s.length + natOf s := by
  induction s generalizing a with
  | nil => simp [natOf]
  | cons c s ih => rw [List.foldl_cons, ih, natOf, List.length_cons]; ring

theorem digsVal_eq (s : Str) : digsVal s = natOf s := by rw [digsVal, digsVal_go]; simp

theorem natOf_append (a b : Str) : natOf (a ++ b) = natOf a * 10 ^ b.length + natOf b := by
  induction a with
  | nil => simp [natOf]
  | cons c a ih => simp only [List.cons_append, natOf, ih, List.length_append, pow_add]; ring

theorem pow10_zpow (e : Int) : pow10 e = (10 : ℚ) ^ e := by
  unfold pow10
  split_ifs with h
  · obtain ⟨n, rfl⟩ := Int.eq_ofNat_of_zero_le h
    simp
  · obtain ⟨n, hn⟩ := Int.eq_ofNat_of_zero_le (show 0 ≤ -e by omega)
    have : e = -(n : Int) := by omega
    subst this
    simp [zpow_neg]

theorem takeW (a : Str) (c : Char) (r : Str) (ha : ∀ x ∈ a, isDig x = true) (hc : isDig c = false) :
    (a ++ c :: r).takeWhile isDig = a ∧ (a ++ c :: r).dropWhile isDig = c :: r := by
  constructor
  · rw [List.takeWhile_append_of_pos ha]; simp [hc]
  · rw [List.dropWhile_append_of_pos ha]; simp [hc]

theorem takeW_all (a : Str) (ha : ∀ x ∈ a, isDig x = true) :
    a.takeWhile isDig = a ∧ a.dropWhile isDig = [] := by
  induction a with
  | nil => simp
  | cons c a ih =>
    have := ih (fun x hx => ha x (by simp [hx]))
    simp [ha c (by simp), this]

/-- The exponent text. -/
def expText (ex : Char) (b : Bool) (e : Str) : Str := ex :: ((if b then ['-'] else []) ++ e)

theorem dig_not_minus (c : Char) (h : isDig c = true) : c ≠ '-' ∧ c ≠ '+' ∧ c ≠ '.' ∧ c ≠ 'e' ∧ c ≠ 'E' := by
  refine ⟨?_, ?_, ?_, ?_, ?_⟩ <;> (rintro rfl; revert h; decide)

theorem parseExp_text (ex : Char) (hex : ex = 'e' ∨ ex = 'E') (b : Bool) (e : Str) (h0 : e ≠ []) (he : ∀ c ∈ e, isDig c = true) :
    parseExp (expText ex b e) = some (if b then -(natOf e : Int) else (natOf e : Int)) := by
  have hall : e.all isDig = true := by simpa using he
  cases b with
  | true => simp [expText, parseExp, hex, h0, hall, digsVal_eq]
  | false =>
    obtain ⟨c, r, rfl⟩ := List.exists_cons_of_ne_nil h0
    have hc := dig_not_minus c (he c (by simp))
    simp only [expText, parseExp, hex, if_true, Bool.false_eq_true, if_false, List.nil_append]
    split
    · rename_i h; simp at h; exact absurd h.1 hc.1
    · rename_i h; simp at h; exact absurd h.1 hc.2.1
    · rename_i ds _ _; simp [hall, digsVal_eq]

theorem ex_not_dig (ex : Char) (hex : ex = 'e' ∨ ex = 'E') : isDig ex = false ∧ ex ≠ '.' := by
  rcases hex with e | e <;> subst e <;> decide

/-- The unsigned part of a number. -/
def Lit.body (l : Lit) (ex : Char) : Str :=
  l.ip ++ ((match l.frac with | none => [] | some f => '.' :: f) ++
     (match l.exp with | none => [] | some (b, e) => expText ex b e))

/-- The unsigned value. -/
def Lit.absValue (l : Lit) : ℚ :=
  ((natOf l.ip : ℚ) + (match l.frac with | none => 0 | some f => (natOf f : ℚ) / 10 ^ f.length)) *
  (match l.exp with
   | none => 1
   | some (true, e) => 1 / 10 ^ natOf e
   | some (false, e) => 10 ^ natOf e)

theorem exp_factor (b : Bool) (e : Str) :
    ((10 : ℚ) ^ (if b then -(natOf e : Int) else (natOf e : Int))) =
      (match (some (b, e) : Option (Bool × Str)) with
       | none => 1
       | some (true, e) => 1 / 10 ^ natOf e
       | some (false, e) => 10 ^ natOf e) := by
  cases b <;> simp [zpow_neg]

theorem parseUnsigned_body (l : Lit) (ex : Char) (hex : ex = 'e' ∨ ex = 'E') (hw : l.Wf)
    (hfe : l.frac.isSome ∨ l.exp.isSome) : parseUnsigned (l.body ex) = some (.float l.absValue) := by
  obtain ⟨h1, h2, h3, h4⟩ := hw
  have hdot : isDig '.' = false := by decide
  have hexd := ex_not_dig ex hex
  obtain ⟨ng, ip, frac, exp⟩ := l
  simp only at h1 h2 h3 h4 hfe
  cases frac with
  | some f =>
    have hf := h2 f rfl
    have hne : ¬ (ip = [] ∧ f = []) := by
      rcases h4 with h | ⟨f', e, h⟩
      · exact fun c => h c.1
      · simp at e; subst e; exact fun c => h c.2
    have hv : ∀ k : Int, ((natOf ip : ℚ) * 10 ^ f.length + natOf f) * (10 : ℚ) ^ (k - (f.length : Int)) =
        ((natOf ip : ℚ) + natOf f / 10 ^ f.length) * 10 ^ k := by
      intro k
      rw [zpow_sub₀ (by norm_num)]
      have : (10 : ℚ) ^ f.length ≠ 0 := by positivity
      simp only [zpow_natCast]
      field_simp
    cases exp with
    | none =>
      have t := takeW ip '.' f h1 hdot
      have t2 := takeW_all f hf
      simp only [parseUnsigned, Lit.body, List.append_nil, t.1, t.2, t2.1, t2.2, if_neg hne, Lit.absValue]
      have := hv 0
      simp only [zero_sub, zpow_zero, mul_one] at this
      rw [pow10_zpow, digsVal_eq, natOf_append]
      push_cast
      rw [this, mul_one]
    | some be =>
      obtain ⟨b, e⟩ := be
      obtain ⟨he0, he⟩ := h3 b e rfl
      have t := takeW ip '.' (f ++ expText ex b e) h1 hdot
      have t2 := takeW f ex ((if b then ['-'] else []) ++ e) hf hexd.1
      have hpe := parseExp_text ex hex b e he0 he
      simp only [expText] at hpe t
      simp only [parseUnsigned, Lit.body, List.cons_append, expText, t.1, t.2, t2.1, t2.2, if_neg hne, Lit.absValue, hpe,
        Option.map_some]
      rw [pow10_zpow, digsVal_eq, natOf_append]
      push_cast
      rw [hv, exp_factor]
  | none =>
    cases exp with
    | none => simp at hfe
    | some be =>
      obtain ⟨b, e⟩ := be
      obtain ⟨he0, he⟩ := h3 b e rfl
      have hip : ip ≠ [] := by
        rcases h4 with h | ⟨f', e, h⟩
        · exact h
        · cases e
      have t := takeW ip ex ((if b then ['-'] else []) ++ e) h1 hexd.1
      have hpe := parseExp_text ex hex b e he0 he
      simp only [expText] at hpe
      simp only [parseUnsigned, Lit.body, List.nil_append, expText, t.1, t.2, Lit.absValue]
      split
      · rename_i h; cases h
      · rename_i h; simp at h; exact absurd h.1 hexd.2
      · simp only [if_neg hip, hpe, Option.map_some, add_zero]
        rw [pow10_zpow, digsVal_eq, exp_factor]

theorem body_head (l : Lit) (ex : Char) (hw : l.Wf) : ∃ c r, l.body ex = c :: r ∧ c ≠ '-' := by
  obtain ⟨h1, h2, h3, h4⟩ := hw
  obtain ⟨ng, ip, frac, exp⟩ := l
  simp only at h1 h2 h3 h4
  cases ip with
  | cons c r => exact ⟨c, _, rfl, (dig_not_minus c (h1 c (by simp))).1⟩
  | nil =>
    rcases h4 with h | ⟨f, e, h⟩
    · exact absurd rfl h
    · subst e
      exact ⟨'.', _, rfl, by decide⟩

theorem render_body (l : Lit) (ex : Char) : l.render ex = (if l.neg then ['-'] else []) ++ l.body ex := rfl

theorem literalEval_render (E : Ext) (l : Lit) (ex : Char) (hex : ex = 'e' ∨ ex = 'E') (hw : l.Wf)
    (hfe : l.frac.isSome ∨ l.exp.isSome) : literalEval E (l.render ex) = some (.float l.value) := by
  have hb := parseUnsigned_body l ex hex hw hfe
  have hval : l.value = (if l.neg then -1 else 1) * l.absValue := by simp only [Lit.value, Lit.absValue, mul_assoc]; rfl
  rw [render_body, hval]
  by_cases hn : l.neg = true
  · simp [literalEval, parseSigned, hn, hb, neg]
  · obtain ⟨c, r, hc, hc'⟩ := body_head l ex hw
    have hs : (if l.neg = true then ['-'] else []) ++ l.body ex = l.body ex := by simp [hn]
    rw [hs]
    unfold literalEval
    have : parseSigned (l.body ex) = some (.float l.absValue) := by
      unfold parseSigned
      split
      · rename_i h; rw [hc] at h; simp at h; exact absurd h.1 hc'
      · exact hb
    rw [this]
    simp [hn]

theorem render_numChar (l : Lit) (ex : Char) (hex : ex = 'e' ∨ ex = 'E') (hw : l.Wf) : ∀ c ∈ l.render ex, NumChar c := by
  obtain ⟨h1, h2, h3, h4⟩ := hw
  intro c hc
  simp only [Lit.render, List.mem_append] at hc
  rcases hc with hc | hc | hc | hc
  · split_ifs at hc
    · simp at hc; exact Or.inr (Or.inr (Or.inl hc))
    · cases hc
  · exact Or.inl (h1 c hc)
  · cases hf : l.frac with
    | none => simp [hf] at hc
    | some f =>
      simp only [hf, List.mem_cons] at hc
      rcases hc with e | e
      · exact Or.inr (Or.inl e)
      · exact Or.inl (h2 f hf c e)
  · cases he : l.exp with
    | none => simp [he] at hc
    | some be =>
      obtain ⟨b, e⟩ := be
      simp only [he, List.mem_cons, List.mem_append] at hc
      rcases hc with h | h | h
      · subst h; rcases hex with h | h
        · exact Or.inr (Or.inr (Or.inr (Or.inl h)))
        · exact Or.inr (Or.inr (Or.inr (Or.inr h)))
      · split_ifs at h
        · simp at h; exact Or.inr (Or.inr (Or.inl h))
        · cases h
      · exact Or.inl ((h3 b e he).2 c h)

theorem floatRegex_exp (ip : Str) (ex : Char) (hex : ex = 'e' ∨ ex = 'E') (b : Bool) (e : Str) (hip : ip ≠ [])
    (h1 : ∀ c ∈ ip, isDig c = true) (he0 : e ≠ []) (he : ∀ c ∈ e, isDig c = true) :
    floatRegex (ip ++ expText ex b e) = true := by
  obtain ⟨c, r, rfl⟩ := List.exists_cons_of_ne_nil he0
  have hc := he c (by simp)
  have hcm := (dig_not_minus c hc).1
  have t := takeW ip ex ((if b then ['-'] else []) ++ c :: r) h1 (ex_not_dig ex hex).1
  simp only [floatRegex, expText, t.1, t.2]
  have : (((if b then ['-'] else []) ++ c :: r).dropWhile (· == '-')) = c :: r := by
    cases b <;> simp [hcm]
  rw [this]
  have hex' : (ex == 'e' || ex == 'E') = true := by simpa using hex
  simp [hip, hc, hex']

/-- **C41.** Every decimal literal — integer (leading zeros allowed), with a decimal point, or with
an `e`/`E` exponent — is read as exactly the number it denotes: an integer as an `int`, any other as a
`float`.  Excepted are negative numbers with an exponent and no decimal point (see
`C41_negative_exponent_wrong`) and plus signs (`C41_plus_wrong`). -/
theorem C41_number_typed_partial (E : Ext) (l : Lit) (ex : Char) (hex : ex = 'e' ∨ ex = 'E') (hw : l.Wf)
    (hok : ¬ (l.neg = true ∧ l.frac = none ∧ l.exp.isSome)) :
    ∃ v, typer E (l.render ex) = some v ∧ v.num = some l.value ∧
      ((∃ z, v = .int z) ↔ l.frac = none ∧ l.exp = none) := by
  rw [typer_num E _ (render_numChar l ex hex hw)]
  by_cases hfe : l.frac.isSome ∨ l.exp.isSome
  · have hcond : (contains ['.'] (l.render ex) || floatRegex (l.render ex)) = true := by
      rw [Bool.or_eq_true]
      cases hf : l.frac with
      | some f => left; rw [contains_single]; simp [Lit.render, hf]
      | none =>
        right
        have hes : l.exp.isSome := by simpa [hf] using hfe
        have hn : l.neg = false := by
          cases h : l.neg with
          | false => rfl
          | true => exact absurd ⟨h, hf, hes⟩ hok
        obtain ⟨⟨b, e⟩, he⟩ := Option.isSome_iff_exists.1 hes
        have hip : l.ip ≠ [] := by
          rcases hw.2.2.2 with h | ⟨f, h, _⟩
          · exact h
          · rw [hf] at h; cases h
        have hr : l.render ex = l.ip ++ expText ex b e := by simp [Lit.render, hn, hf, he, expText]
        rw [hr]
        obtain ⟨he0, hed⟩ := hw.2.2.1 b e he
        exact floatRegex_exp _ _ hex _ _ hip hw.1 he0 hed
    rw [if_pos hcond, literalEval_render E l ex hex hw hfe]
    refine ⟨_, rfl, rfl, ?_⟩
    constructor
    · rintro ⟨z, hz⟩; cases hz
    · rintro ⟨a, b⟩; simp [a, b] at hfe
  · have hf : l.frac = none := by
      cases h : l.frac with
      | none => rfl
      | some f => simp [h] at hfe
    have he : l.exp = none := by
      cases h : l.exp with
      | none => rfl
      | some f => simp [h] at hfe
    have hip : l.ip ≠ [] := by
      rcases hw.2.2.2 with h | ⟨f, h, _⟩
      · exact h
      · rw [hf] at h; cases h
    have hr : l.render ex = (if l.neg then ['-'] else []) ++ l.ip := by simp [Lit.render, hf, he]
    have hall : l.ip.all isDig = true := by simpa using hw.1
    have hval : l.value = (if l.neg then -1 else 1) * (natOf l.ip : ℚ) := by simp [Lit.value, hf, he]
    have hdot : contains ['.'] (l.render ex) = false := by
      apply contains_false _ _ '.' (by simp)
      rw [hr]
      intro hm
      rcases List.mem_append.1 hm with h | h
      · split_ifs at h
        · simp at h
        · cases h
      · exact (dig_not_minus _ (hw.1 _ h)).2.2.1 rfl
    have hre : floatRegex (l.render ex) = false := by
      rw [hr]
      by_cases hn : l.neg = true
      · have : isDig '-' = false := by decide
        simp [hn, floatRegex, this]
      · have t := takeW_all l.ip hw.1
        simp only [hn, floatRegex, Bool.false_eq_true, if_false, List.nil_append, t.2, Bool.and_false]
    rw [hdot, hre]
    simp only [Bool.or_self, Bool.false_eq_true, if_false]
    rw [hr, hval]
    by_cases hn : l.neg = true
    · refine ⟨.int (-(natOf l.ip : Int)), ?_, ?_, ?_⟩
      · simp only [hn, if_true, List.cons_append, List.nil_append, pyInt]
        rw [if_pos ⟨hip, hall⟩, digsVal_eq]
      · simp [PyVal.num, hn]
      · simp [hf, he]
    · refine ⟨.int (natOf l.ip : Int), ?_, ?_, ?_⟩
      · obtain ⟨c, r, hc⟩ := List.exists_cons_of_ne_nil hip
        have hcm := (dig_not_minus c (hw.1 c (by simp [hc]))).1
        have hs : (if l.neg = true then ['-'] else []) ++ l.ip = l.ip := by simp [hn]
        rw [hs]
        unfold pyInt
        split
        · rename_i h; rw [hc] at h; simp at h; exact absurd h.1 hcm
        · rw [if_pos ⟨hip, hall⟩, digsVal_eq]
      · simp [PyVal.num, hn]
      · simp [hf, he]

/-- **C41 fails** for negative numbers with an exponent but no decimal point (`-1e5`): the pattern for
floats does not admit a sign, so the text is handed to `int`, which rejects it. -/
theorem C41_negative_exponent_wrong (E : Ext) (l : Lit) (ex : Char) (hex : ex = 'e' ∨ ex = 'E') (hw : l.Wf)
    (hn : l.neg = true) (hf : l.frac = none) (he : l.exp.isSome) :
    typer E (l.render ex) = E.int (l.render ex) := by
  rw [typer_num E _ (render_numChar l ex hex hw)]
  obtain ⟨⟨b, e⟩, he⟩ := Option.isSome_iff_exists.1 he
  have hr : l.render ex = '-' :: (l.ip ++ expText ex b e) := by simp [Lit.render, hn, hf, he, expText]
  have hdot : contains ['.'] (l.render ex) = false := by
    apply contains_false _ _ '.' (by simp)
    rw [hr]
    intro hm
    simp only [List.mem_cons, List.mem_append, expText] at hm
    rcases hm with h | h | h | h | h
    · revert h; decide
    · exact (dig_not_minus _ (hw.1 _ h)).2.2.1 rfl
    · exact (ex_not_dig ex hex).2 h.symm
    · split_ifs at h
      · simp at h
      · cases h
    · exact (dig_not_minus _ ((hw.2.2.1 b e he).2 _ h)).2.2.1 rfl
  have hre : floatRegex (l.render ex) = false := by
    have : isDig '-' = false := by decide
    simp [hr, floatRegex, this]
  rw [hdot, hre, hr]
  simp only [Bool.or_self, Bool.false_eq_true, if_false, pyInt]
  have : ¬ ((l.ip ++ expText ex b e).all isDig = true) := by
    intro h
    rw [List.all_eq_true] at h
    have := h ex (by simp [expText])
    rw [(ex_not_dig ex hex).1] at this; cases this
  rw [if_neg (fun h => this h.2)]

/-- **C41 fails** for explicit plus signs: the plus is not a word character, so the value is cut.
(`int('1e')` and `int('+')` raise in Python.) -/
theorem C41_plus_wrong (E : Ext) (h1 : E.int "1e".toList = none) (h2 : E.int "+".toList = none) :
    parseInlist E "x = 1e+5\n".toList [] = none ∧ parseInlist E "x = +5\n".toList [] = none := by
  have l1 : lexGo .idle false (joinLines "x = 1e+5\n".toList) =
      some ["x".toList, "=".toList, "1e".toList, "+".toList, "5".toList] := by decide +kernel
  have l2 : lexGo .idle false (joinLines "x = +5\n".toList) =
      some ["x".toList, "=".toList, "+".toList, "5".toList] := by decide +kernel
  have t1 : typer E "1e".toList = E.int "1e".toList := rfl
  have t2 : typer E "+".toList = E.int "+".toList := rfl
  constructor
  · simp only [parseInlist, l1, Option.bind_some, parseToks, t1, h1, Option.bind_none]
  · simp only [parseInlist, l2, Option.bind_some, parseToks, t2, h2, Option.bind_none]

/-- Non-vacuity: `-12.50e-3` and `007`. -/
example : (⟨true, "12".toList, some "50".toList, some (true, "3".toList)⟩ : Lit).Wf :=
  ⟨by decide, by intro f h; cases h; decide, by intro b e h; cases h; decide, Or.inl (by decide)⟩
example : (⟨true, "12".toList, some "50".toList, some (true, "3".toList)⟩ : Lit).render 'e' = "-12.50e-3".toList := by decide
example : typer exExt "-12.50e-3".toList = some (.float (-1/80)) := by decide +kernel
example : typer exExt "007".toList = some (.int 7) := by decide +kernel
example : typer exExt "1E3".toList = some (.float 1000) := by decide +kernel

/-! ## Quoted strings -/

theorem dropWhile_none (q : Char) (s : Str) (h : q ∉ s) : s.dropWhile (· == q) = s := by
  cases s with
  | nil => rfl
  | cons c s => simp [List.dropWhile_cons, show c ≠ q from fun e => h (by simp [e])]

theorem strip_none (q : Char) (s : Str) (h : q ∉ s) : strip q s = s := by
  rw [strip, dropWhile_none q s h, dropWhile_none q s.reverse (by simpa using h), List.reverse_reverse]

theorem strip_quoted (q : Char) (s : Str) (h : q ∉ s) : strip q (q :: (s ++ [q])) = s := by
  have h1 : (q :: (s ++ [q])).dropWhile (· == q) = (s ++ [q]).dropWhile (· == q) := by simp
  cases s with
  | nil => simp [strip]
  | cons c s =>
    have hc : c ≠ q := fun e => h (by simp [e])
    have h2 : ((c :: s) ++ [q]).dropWhile (· == q) = (c :: s) ++ [q] := by simp [hc]
    rw [strip, h1, h2, List.reverse_append]
    simp only [List.reverse_singleton, List.singleton_append, List.dropWhile_cons, beq_self_eq_true, if_true]
    rw [dropWhile_none q (c :: s).reverse (by rw [List.mem_reverse]; exact h), List.reverse_reverse]

/-- **C60.** A quoted string without quotes and not containing both square brackets is read as the
string between the quotes. -/
theorem C60_quoted_string_partial (E : Ext) (q : Char) (hq : isQuote q = true) (body : Str) (h1 : '\'' ∉ body) (h2 : '"' ∉ body)
    (h3 : '[' ∉ body ∨ ']' ∉ body) : typer E (q :: (body ++ [q])) = some (.str body) := by
  have hq' : q = '\'' ∨ q = '"' := by simpa [isQuote] using hq
  have c1 : (contains ['\''] (q :: (body ++ [q])) || contains ['"'] (q :: (body ++ [q]))) = true := by
    rw [Bool.or_eq_true, contains_single, contains_single]
    rcases hq' with e | e <;> simp [e]
  have c2 : (contains ['['] (q :: (body ++ [q])) && contains [']'] (q :: (body ++ [q]))) = false := by
    rw [Bool.and_eq_false_iff]
    rcases h3 with h | h
    · left; apply contains_false _ _ '[' (by simp)
      rcases hq' with e | e <;> simp [e, h]
    · right; apply contains_false _ _ ']' (by simp)
      rcases hq' with e | e <;> simp [e, h]
  unfold typer
  rw [if_pos c1, c2]
  simp only [Bool.false_eq_true, if_false, Option.some.injEq, PyVal.str.injEq]
  rcases hq' with e | e
  · subst e
    rw [strip_none '"' _ (by simp [h2]), strip_quoted _ _ h1]
  · subst e
    rw [strip_quoted _ _ h2, strip_none _ _ h1]

/-- **C60 fails** for nested quotes, and a tuple of strings is read as one string. -/
theorem C60_nested_quotes_wrong (E : Ext) :
    typer E "\"'a'\"".toList = some (.str "a".toList) ∧
    typer E "('a','b')".toList = some (.str "('a','b')".toList) := ⟨rfl, rfl⟩

example : typer exExt "'True'".toList = some (.str "True".toList) :=
  C60_quoted_string_partial exExt '\'' rfl "True".toList (by decide) (by decide) (Or.inl (by decide))

/-- **C41** (words). An unquoted value spelling a Python truth value or `None` (also in capitals for
the truth values) is read as exactly that value. -/
theorem C41_words_typed (E : Ext) :
    typer E "False".toList = some (.bool false) ∧ typer E "FALSE".toList = some (.bool false) ∧
    typer E "True".toList = some (.bool true) ∧ typer E "TRUE".toList = some (.bool true) ∧
    typer E "None".toList = some .none := by
  refine ⟨rfl, rfl, rfl, rfl, rfl⟩

theorem contains_of_infix (sub a b : Str) : contains sub (a ++ sub ++ b) = true := by
  induction a with
  | nil =>
    cases sub with
    | nil => cases b <;> simp [contains]
    | cons c cs => simp [contains]
  | cons x xs ih =>
    simp only [List.cons_append, contains, Bool.or_eq_true]
    right; simpa using ih

/-- **C41 fails** for unquoted words that merely contain one of these: every unquoted text with
`False` in it is the boolean `False`, whatever surrounds it, instead of raising. -/
theorem C41_embedded_word_wrong (E : Ext) (a b : Str)
    (ha : '\'' ∉ a ∧ '"' ∉ a) (hb : '\'' ∉ b ∧ '"' ∉ b) :
    typer E (a ++ "False".toList ++ b) = some (.bool false) := by
  have e : "False".toList = ['F', 'a', 'l', 's', 'e'] := rfl
  have c1 : contains ['\''] (a ++ "False".toList ++ b) = false := by
    apply contains_false _ _ '\'' (by simp)
    rw [e]; simp [ha.1, hb.1]
  have c2 : contains ['"'] (a ++ "False".toList ++ b) = false := by
    apply contains_false _ _ '"' (by simp)
    rw [e]; simp [ha.2, hb.2]
  have c3 := contains_of_infix "False".toList a b
  unfold typer
  rw [c1, c2, c3]; simp

end Verif.Inlist
