import Verif.Runner.Model
import Mathlib.Tactic.IntervalCases
/-! # Properties C116-C119: words, save name, choice of the inlist -/
namespace Verif.Runner
open Verif.Opts (Val Tbl Item Arg PathInfo getHa readDict readList find setKey truthy mode1 findBase)
open Verif.Inlist (Str contains)

/-! ### C116: numbers in words -/

/-- English words of the numbers below twenty. -/
def Spec.small : List String :=
  ["zero", "one", "two", "three", "four", "five", "six", "seven", "eight", "nine", "ten", "eleven", "twelve", "thirteen",
   "fourteen", "fifteen", "sixteen", "seventeen", "eighteen", "nineteen"]
/-- English words of the multiples of ten. -/
def Spec.tens : List String := ["", "", "twenty", "thirty", "forty", "fifty", "sixty", "seventy", "eighty", "ninety"]
/-- The words of a number below one hundred. -/
def Spec.below100 (n : ℕ) : List String :=
  if n < 20 then [Spec.small.getD n ""]
  else Spec.tens.getD (n / 10) "" :: (if n % 10 = 0 then [] else [Spec.small.getD (n % 10) ""])
/-- The words of a number below one thousand. -/
def Spec.english (n : ℕ) : List String :=
  if n < 100 then Spec.below100 n
  else Spec.small.getD (n / 100) "" :: "hundred" :: (if n % 100 = 0 then [] else Spec.below100 (n % 100))

theorem countWords_group (n : ℕ) (h0 : n ≠ 0) (h : n < 1000) : countWords n = groupWords n := by
  rw [countWords, if_neg h0, Nat.digits_of_lt 1000 n h0 h]
  simp

/-- **C116 (partial).** The words of a number below one thousand are right exactly if it has no tens above ten, or its digits
of hundreds and tens are equal. -/
theorem C116_words_partial (n : ℕ) (h : n < 1000) :
    countWords n = Spec.english n ↔ n / 10 % 10 ≤ 1 ∨ n / 10 % 10 = n / 100 := by
  rcases Nat.eq_zero_or_pos n with rfl | h0
  · exact ⟨fun _ => Or.inl (by decide), fun _ => rfl⟩
  · rw [countWords_group n h0.ne' h]
    have key : ∀ m : Fin 1000, 0 < m.1 →
        (groupWords m.1 = Spec.english m.1 ↔ m.1 / 10 % 10 ≤ 1 ∨ m.1 / 10 % 10 = m.1 / 100) := by
      decide +kernel
    exact key ⟨n, h⟩ h0

/-- **C116.** The numbers that the scripts spell (two and five arguments) are right. -/
theorem C116_messages : countWords 2 = ["two"] ∧ countWords 5 = ["five"] := by
  rw [countWords_group 2 (by decide) (by decide), countWords_group 5 (by decide) (by decide)]
  decide

/-- **C116 (refutation).** For twenty and above (up to ninety-nine) the tens are an empty word. -/
theorem C116_tens_wrong (n : ℕ) (h : 20 ≤ n) (h' : n < 100) :
    countWords n ≠ Spec.english n ∧ (countWords n).head? = some "" := by
  refine ⟨fun hc => ?_, ?_⟩
  · have := (C116_words_partial n (by omega)).1 hc
    omega
  · rw [countWords_group n (by omega) (by omega)]
    have h1 : n / 100 = 0 := by omega
    have h2 : n / 10 % 10 > 1 := by omega
    simp [groupWords, h1, h2, tens]

/-- **C116 (refutation).** Thousands are not named: a thousand times a number is spelled like the number itself. -/
theorem C116_thousands_wrong (n : ℕ) (h : 0 < n) : countWords (1000 * n) = countWords n := by
  have h1 : 1000 * n ≠ 0 := by omega
  have hd : Nat.digits 1000 (1000 * n) = 0 :: Nat.digits 1000 n := by
    have := Nat.digits_def' (b := 1000) (by decide) (show 0 < 1000 * n by omega)
    rw [this]; simp
  rw [countWords, if_neg h1, countWords, if_neg h.ne', hd]
  simp [groupWords]

/-! ### C117: the save name -/

/-- The attributes of the namespace are those of the registered options. -/
theorem find_isSome_setKey (d : Tbl) (k k' : Str) (v : Val) : find k' (setKey d k v) = none ↔ find k' d = none ∧ k' ≠ k := by
  unfold find setKey
  simp only [Option.map_eq_none_iff, List.find?_eq_none]
  split
  · rename_i h
    simp only [List.mem_map, forall_exists_index, and_imp, forall_apply_eq_imp_iff₂]
    constructor
    · intro hx
      refine ⟨fun e he hk => ?_, ?_⟩
      · have := hx e he
        split at this
        · rename_i hk'
          simp_all
        · exact this hk
      · rintro rfl
        obtain ⟨e, he, hk⟩ := List.any_eq_true.1 h
        have := hx e he
        simp [hk] at this
    · rintro ⟨h1, h2⟩ e he hk
      split at hk
      · exact h2 (by simpa using hk : k = k').symm
      · exact h1 e he hk
  · simp only [List.mem_append, List.mem_singleton]
    constructor
    · intro hx
      refine ⟨fun e he => hx e (Or.inl he), ?_⟩
      rintro rfl
      exact hx (k', v) (Or.inr rfl) (by simp)
    · rintro ⟨h1, h2⟩ e (he | rfl) hk
      · exact h1 e he hk
      · exact h2 (by simpa using hk : k = k').symm

theorem parse_attr (opts : List CliOpt) (ns ns' : Namespace) (argv : List Str) (k : Str)
    (hk : ∀ o ∈ opts, k ≠ o.dest) (hn : find k ns = none) (h : parseArgs opts ns argv = .ok ns') : find k ns' = none := by
  induction argv using List.twoStepInduction generalizing ns with
  | nil => cases h; exact hn
  | singleton a =>
    rw [parseArgs] at h
    split at h
    · rw [parseArgs] at h; cases h; exact hn
    · rename_i o ho
      have hd := hk o (List.mem_of_find?_eq_some ho)
      split at h
      · cases h
      · rw [parseArgs] at h; cases h; exact (find_isSome_setKey _ _ _ _).2 ⟨hn, hd⟩
  | cons_cons a b l ih1 ih2 =>
    rw [parseArgs] at h
    split at h
    · exact ih2 b ns hn h
    · rename_i o ho
      have hd := hk o (List.mem_of_find?_eq_some ho)
      split at h
      · dsimp only at h
        split at h
        · cases h
        · exact ih1 _ ((find_isSome_setKey _ _ _ _).2 ⟨hn, hd⟩) h
      · exact ih2 b _ ((find_isSome_setKey _ _ _ _).2 ⟨hn, hd⟩) h

/-- **C117 (refutation).** No solve run gets to a computation: whatever the command line, the files and the inlist, it ends
with an exception, and if nothing else is wrong it is the missing attribute of the save name. -/
theorem C117_no_run_wrong (fs : FS) (docs : List Str → Tbl) (argv : List Str) :
    (∀ o, solveRun (classMethods .solve) fs docs argv ≠ .ok o) ∧
      ∀ inlist p a, inlistPath .solve fs argv = .ok inlist → parserInit (baseName .solve) (classMethods .solve) fs inlist argv = .ok p →
        readArgs p.info (p.doc fs docs) = .ok a → solveRun (classMethods .solve) fs docs argv = .error .attribute := by
  have key : ∀ inlist p, parserInit (baseName .solve) (classMethods .solve) fs inlist argv = .ok p →
      getSaveName p = .error .attribute := by
    intro inlist p hp
    unfold parserInit at hp
    split at hp
    · cases hp
    · split at hp
      · rename_i i _ _
        cases hq : parseArgs (parserOpts (classMethods .solve)) (defaults (parserOpts (classMethods .solve))) argv.tail with
        | error e => rw [hq] at hp; cases hp
        | ok ns =>
          rw [hq] at hp
          cases hp
          have := parse_attr _ _ ns argv.tail "save_file_name".toList (by decide) (by rfl) hq
          unfold getSaveName
          rw [this]
      · cases hp
  have hrun : ∀ inlist p a, inlistPath .solve fs argv = .ok inlist →
      parserInit (baseName .solve) (classMethods .solve) fs inlist argv = .ok p →
      readArgs p.info (p.doc fs docs) = .ok a → solveRun (classMethods .solve) fs docs argv = .error .attribute := by
    intro inlist p a h1 h2 h3
    simp [solveRun, h1, h2, h3, key inlist p h2, bind, Except.bind]
  refine ⟨fun o ho => ?_, hrun⟩
  cases h1 : inlistPath .solve fs argv with
  | error e => simp [solveRun, h1, bind, Except.bind] at ho
  | ok inlist =>
    cases h2 : parserInit (baseName .solve) (classMethods .solve) fs inlist argv with
    | error e => simp [solveRun, h1, h2, bind, Except.bind] at ho
    | ok p =>
      cases h3 : readArgs p.info (p.doc fs docs) with
      | error e => simp [solveRun, h1, h2, h3, bind, Except.bind] at ho
      | ok a => rw [hrun inlist p a h1 h2 h3] at ho; cases ho

end Verif.Runner
