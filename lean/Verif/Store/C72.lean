import Verif.Store.Names
import Mathlib.Tactic.IntervalCases
/-! # Properties C72 and C73: names of saved files, and finding them again -/
namespace Verif.Store
open Verif.Inlist (Str greedyTo)

namespace Spec
/-- A name made of word characters only. -/
def WordName (w : WordChars) (n : Str) : Prop := n ≠ [] ∧ ∀ c ∈ n, w.is c = true
/-- The quantum numbers as they are to be found in a file name. -/
def quantum (k m : ℤ × ℤ × ℤ) : Str :=
  ['_', 'k', '_'] ++ dec k.1 ++ ['_'] ++ dec k.2.1 ++ ['_'] ++ dec k.2.2 ++
  ['_', 'm', '_'] ++ dec m.1 ++ ['_'] ++ dec m.2.1 ++ ['_'] ++ dec m.2.2
/-- Three numbers in a list. -/
def l3 (k : ℤ × ℤ × ℤ) : List ℤ := [k.1, k.2.1, k.2.2]
/-- The part of a path up to its last slash: the directory of the file. -/
def dirName (p : Str) : Str := (p.reverse.dropWhile (· ≠ '/')).reverse
end Spec
open Spec

theorem greedy_none {β : Type} (c : Char) (k : Str → Str → Option β) : ∀ (s acc : Str),
    (∀ a r, s = a ++ c :: r → ∀ acc, k acc r = none) → greedyTo c k acc s = none
  | [], _, _ => rfl
  | x :: xs, acc, h => by
    have h1 : greedyTo c k (acc ++ [x]) xs = none := greedy_none c k xs _ fun a r e acc => h (x :: a) r (by simp [e]) acc
    have h2 : (if x = c then k acc xs else none) = none := by
      split
      · next e => exact h [] xs (by simp [e]) acc
      · rfl
    rw [greedyTo, h1]
    split
    · next e => split at e <;> simp at e
    · exact h2

theorem greedy_some {β : Type} (k : Str → Str → Option β) (t : Str) (b : β)
    (ht : ∀ a r, t = a ++ '/' :: r → ∀ acc, k acc r = none) : ∀ (d acc : Str),
    '\n' ∉ d → k (acc ++ d) t = some b → greedyTo '/' k acc (d ++ '/' :: t) = some b
  | [], acc, _, h => by
    have h1 : greedyTo '/' k (acc ++ ['/']) t = none := greedy_none _ _ _ _ ht
    simp only [List.nil_append, greedyTo, h1]
    simpa using h
  | x :: d, acc, hd, h => by
    have hx : x ≠ '\n' := fun e => hd (by simp [e])
    have ih := greedy_some k t b ht d (acc ++ [x]) (fun e => hd (by simp [e])) (by simpa using h)
    simp only [List.cons_append, greedyTo, hx, if_false, ih]

theorem word_dot (w : WordChars) : w.is '.' = false := by rw [w.ascii '.' (by decide)]; decide
theorem word_slash (w : WordChars) : w.is '/' = false := by rw [w.ascii '/' (by decide)]; decide
theorem word_h5 (w : WordChars) : w.is 'h' = true ∧ w.is '5' = true := by
  rw [w.ascii 'h' (by decide), w.ascii '5' (by decide)]; decide

theorem takeWhile_all {p : Char → Bool} (n r : Str) (x : Char) (hn : ∀ c ∈ n, p c = true) (hx : p x = false) :
    (n ++ x :: r).takeWhile p = n ∧ (n ++ x :: r).dropWhile p = x :: r := by
  induction n with
  | nil => simp [hx]
  | cons a n ih =>
    have ha := hn a (by simp)
    have := ih fun c hc => hn c (by simp [hc])
    simp only [List.cons_append, List.takeWhile_cons, List.dropWhile_cons, ha, if_true, this, and_self]

theorem tail_word (w : WordChars) (n : Str) (hn : WordName w n) :
    tailMatch w (n ++ ".h5".toList) = some (n, ".h5".toList, []) := by
  have hh := word_h5 w
  have e : ".h5".toList = '.' :: ['h', '5'] := rfl
  obtain ⟨h1, h2⟩ := takeWhile_all n ['h', '5'] '.' hn.2 (word_dot w)
  unfold tailMatch
  rw [e, h1, h2]
  simp [hn.1, hh.1, hh.2]

theorem subAll_nil (w : WordChars) (q : Str) (n : ℕ) : subAll w q n [] = [] := by cases n <;> rfl

theorem adjust_word (w : WordChars) (k m : List ℤ) (d n : Str) (hd : '\n' ∉ d) (hn : WordName w n) :
    adjustPath w k m (d ++ '/' :: n ++ ".h5".toList) = d ++ '/' :: n ++ qnrString k m ++ ".h5".toList := by
  have hns : '/' ∉ n ++ ".h5".toList := by
    intro e
    rcases List.mem_append.1 e with e | e
    · have := hn.2 _ e; rw [word_slash] at this; cases this
    · revert e; decide
  have hm : matchAt w (d ++ '/' :: n ++ ".h5".toList) = some (d ++ '/' :: n, ".h5".toList, []) := by
    unfold matchAt
    rw [List.append_assoc, List.cons_append]
    refine greedy_some _ _ _ (fun a r e => absurd (by rw [e]; simp) hns) d [] hd ?_
    rw [tail_word w n hn]; rfl
  unfold adjustPath
  cases e : d ++ '/' :: n ++ ".h5".toList with
  | nil => simp at e
  | cons c cs =>
    rw [e] at hm
    simp only [List.length_cons, subAll, hm, subAll_nil, List.append_nil]

theorem qnr_eq (k m : ℤ × ℤ × ℤ) : qnrString (l3 k) (l3 m) = quantum k m := by
  simp only [qnrString, l3, List.map_cons, List.map_nil, joinU, quantum, List.append_assoc, List.cons_append, List.nil_append]

/-- The file of a run without subdirectory whose name is made of word characters lies in the output directory, and its
name is the given one followed by the quantum numbers. -/
theorem C72_name_partial (w : WordChars) (base name : Str) (k m : ℤ × ℤ × ℤ) (hb : '\n' ∉ base) (hn : WordName w name) :
    savedPath w base [] [] name (l3 k) (l3 m) = base ++ "/hdf5_output/".toList ++ name ++ quantum k m ++ ".h5".toList := by
  have h := adjust_word w (l3 k) (l3 m) (base ++ "/hdf5_output".toList) name (by
    intro e
    rcases List.mem_append.1 e with e | e
    · exact hb e
    · revert e; decide) hn
  have e1 : ∀ x : Str, (base ++ "/hdf5_output".toList) ++ '/' :: x = base ++ "/hdf5_output/".toList ++ x := by
    intro x
    have : "/hdf5_output/".toList = "/hdf5_output".toList ++ ['/'] := by decide
    rw [this]; simp
  rw [e1, qnr_eq] at h
  simpa [savedPath, saveName, subDirectory, saveDirectory, slashSubdir, suffix] using h

/-! ## Different runs have different files -/

theorem digitChar_inj : ∀ a < 10, ∀ b < 10, Nat.digitChar a = Nat.digitChar b → a = b := by decide
theorem digitChar_ne : ∀ a < 10, Nat.digitChar a ≠ '_' ∧ Nat.digitChar a ≠ '-' ∧ Nat.digitChar a ≠ '/' := by decide

theorem map_digitChar_inj (l l' : List ℕ) (h : ∀ d ∈ l, d < 10) (h' : ∀ d ∈ l', d < 10)
    (e : l.map Nat.digitChar = l'.map Nat.digitChar) : l = l' := by
  induction l generalizing l' with
  | nil => cases l' <;> simp_all
  | cons a l ih =>
    cases l' with
    | nil => simp at e
    | cons b l' =>
      simp only [List.map_cons, List.cons.injEq] at e
      rw [digitChar_inj a (h a (by simp)) b (h' b (by simp)) e.1,
        ih l' (fun d hd => h d (by simp [hd])) (fun d hd => h' d (by simp [hd])) e.2]

theorem decNat_inj {a b : ℕ} (e : decNat a = decNat b) : a = b := by
  have key : ∀ n, n ≠ 0 → (Nat.digits 10 n).reverse.map Nat.digitChar ≠ ['0'] := by
    intro n hn e
    have : (Nat.digits 10 n).reverse = [0] := by
      refine map_digitChar_inj _ [0] (fun d hd => Nat.digits_lt_base (by norm_num) (List.mem_reverse.1 hd)) (by simp) ?_
      rw [e]; rfl
    have h2 : Nat.digits 10 n = [0] := by simpa using congrArg List.reverse this
    have h3 : Nat.ofDigits 10 (Nat.digits 10 n) = n := Nat.ofDigits_digits 10 n
    rw [h2] at h3; simp at h3; exact hn h3.symm
  unfold decNat at e
  split at e <;> split at e
  · next h1 h2 => rw [h1, h2]
  · next _ h => exact absurd e.symm (key b h)
  · next h _ => exact absurd e (key a h)
  · have := map_digitChar_inj _ _ (fun d hd => Nat.digits_lt_base (by norm_num) (List.mem_reverse.1 hd))
      (fun d hd => Nat.digits_lt_base (by norm_num) (List.mem_reverse.1 hd)) e
    exact Nat.digits_inj_iff.1 (List.reverse_injective this)

theorem decNat_chars (n : ℕ) : ∀ c ∈ decNat n, c ≠ '_' ∧ c ≠ '-' ∧ c ≠ '/' := by
  intro c hc
  unfold decNat at hc
  split at hc
  · simp only [List.mem_singleton] at hc; rw [hc]; decide
  · obtain ⟨d, hd, rfl⟩ := List.mem_map.1 hc
    exact digitChar_ne d (Nat.digits_lt_base (by norm_num) (List.mem_reverse.1 hd))

theorem dec_chars (n : ℤ) : ∀ c ∈ dec n, c ≠ '_' ∧ c ≠ '/' := by
  intro c hc
  unfold dec at hc
  split at hc
  · rcases List.mem_cons.1 hc with rfl | hc
    · decide
    · exact ⟨(decNat_chars _ c hc).1, (decNat_chars _ c hc).2.2⟩
  · exact ⟨(decNat_chars _ c hc).1, (decNat_chars _ c hc).2.2⟩

theorem dec_inj {a b : ℤ} (e : dec a = dec b) : a = b := by
  have hne : ∀ n m : ℕ, '-' :: decNat n ≠ decNat m := fun n m e => (decNat_chars m '-' (e ▸ by simp)).2.1 rfl
  unfold dec at e
  split at e <;> split at e
  · have := decNat_inj (List.cons.inj e).2; omega
  · exact absurd e (hne _ _)
  · exact absurd e.symm (hne _ _)
  · have := decNat_inj e; omega

theorem last_sep {s : Char} {r r' a a' : Str} (ha : s ∉ a) (ha' : s ∉ a') (e : r ++ s :: a = r' ++ s :: a') : r = r' ∧ a = a' := by
  have key : ∀ (a a' r r' : Str), s ∉ a → s ∉ a' → a ++ s :: r = a' ++ s :: r' → a = a' ∧ r = r' := by
    intro a
    induction a with
    | nil =>
      intro a' r r' _ h' e
      cases a' with
      | nil => simpa using e
      | cons b a' => simp at e; exact absurd (by simp [e.1]) h'
    | cons b a ih =>
      intro a' r r' h h' e
      cases a' with
      | nil => simp at e; exact absurd (by simp [e.1]) h
      | cons b' a' =>
        simp only [List.cons_append, List.cons.injEq] at e
        obtain ⟨h1, h2⟩ := ih a' r r' (fun m => h (by simp [m])) (fun m => h' (by simp [m])) e.2
        exact ⟨by rw [e.1, h1], h2⟩
  have := congrArg List.reverse e
  simp only [List.reverse_append, List.reverse_cons, List.append_assoc, List.singleton_append] at this
  obtain ⟨h1, h2⟩ := key a.reverse a'.reverse r.reverse r'.reverse (by simpa using ha) (by simpa using ha') this
  exact ⟨List.reverse_injective h2, List.reverse_injective h1⟩

/-- Files of runs with different base directories, names or quantum numbers are different. -/
theorem C72_distinct (w : WordChars) (base base' name name' : Str) (k m k' m' : ℤ × ℤ × ℤ) (hb : '\n' ∉ base) (hb' : '\n' ∉ base')
    (hn : WordName w name) (hn' : WordName w name')
    (h : savedPath w base [] [] name (l3 k) (l3 m) = savedPath w base' [] [] name' (l3 k') (l3 m')) :
    base = base' ∧ name = name' ∧ k = k' ∧ m = m' := by
  rw [C72_name_partial w _ _ _ _ hb hn, C72_name_partial w _ _ _ _ hb' hn'] at h
  have h := List.append_cancel_right h
  have u : ∀ n : ℤ, '_' ∉ dec n := fun n hc => (dec_chars n '_' hc).1 rfl
  have e : ∀ (x : Str) (k m : ℤ × ℤ × ℤ), x ++ quantum k m = (((((((x ++ '_' :: ['k']) ++ '_' :: dec k.1) ++ '_' :: dec k.2.1) ++
      '_' :: dec k.2.2) ++ '_' :: ['m']) ++ '_' :: dec m.1) ++ '_' :: dec m.2.1) ++ '_' :: dec m.2.2 := by
    intro x k m
    simp only [quantum, List.append_assoc, List.cons_append, List.nil_append]
  rw [e, e] at h
  obtain ⟨h, e1⟩ := last_sep (u _) (u _) h
  obtain ⟨h, e2⟩ := last_sep (u _) (u _) h
  obtain ⟨h, e3⟩ := last_sep (u _) (u _) h
  obtain ⟨h, -⟩ := last_sep (by decide) (by decide) h
  obtain ⟨h, e4⟩ := last_sep (u _) (u _) h
  obtain ⟨h, e5⟩ := last_sep (u _) (u _) h
  obtain ⟨h, e6⟩ := last_sep (u _) (u _) h
  obtain ⟨h, -⟩ := last_sep (by decide) (by decide) h
  have ns : ∀ n : Str, WordName w n → '/' ∉ n := by
    intro n hn hc
    have := hn.2 _ hc; rw [word_slash] at this; cases this
  have e7 : ∀ x y : Str, x ++ "/hdf5_output/".toList ++ y = (x ++ "/hdf5_output".toList) ++ '/' :: y := by
    intro x y
    have : "/hdf5_output/".toList = "/hdf5_output".toList ++ ['/'] := by decide
    rw [this]; simp
  rw [e7, e7] at h
  obtain ⟨h, e8⟩ := last_sep (ns _ hn) (ns _ hn') h
  refine ⟨List.append_cancel_right h, e8, ?_, ?_⟩
  · exact Prod.ext (dec_inj e6) (Prod.ext (dec_inj e5) (dec_inj e4))
  · exact Prod.ext (dec_inj e3) (Prod.ext (dec_inj e2) (dec_inj e1))

/-! ## Names with other characters -/

theorem subAll_none (w : WordChars) (q : Str) : ∀ (n : ℕ) (s : Str),
    (∀ a r, s = a ++ '/' :: r → tailMatch w r = none) → subAll w q n s = s
  | 0, _, _ => rfl
  | _ + 1, [], _ => rfl
  | n + 1, c :: cs, h => by
    have : matchAt w (c :: cs) = none := greedy_none _ _ _ _ fun a r e acc => by rw [h a r e]; rfl
    rw [subAll, this]
    simp only []
    rw [subAll_none w q n cs fun a r e => h (c :: a) r (by simp [e])]

theorem tail_other (w : WordChars) (n r : Str) (x : Char) (hn : ∀ c ∈ n, w.is c = true) (hx : w.is x = false) (hd : x ≠ '.') :
    tailMatch w (n ++ x :: r) = none := by
  obtain ⟨h1, h2⟩ := takeWhile_all n r x hn hx
  unfold tailMatch
  rw [h1, h2]
  simp only []
  split
  · rfl
  · split
    · next e => simp only [List.cons.injEq] at e; exact absurd e.1 hd
    · rfl

theorem split_right {l x a b : Str} (hl : '/' ∉ l) (e : l ++ x = a ++ '/' :: b) : ∃ a', x = a' ++ '/' :: b := by
  induction l generalizing a with
  | nil => exact ⟨a, e⟩
  | cons y l ih =>
    cases a with
    | nil => simp at e; exact absurd (by simp [e.1]) hl
    | cons z a => simp only [List.cons_append, List.cons.injEq] at e; exact ih (fun h => hl (by simp [h])) e.2

/-- No slash in the output part of the path is followed by a match when the name has another character. -/
theorem out_none (w : WordChars) (n r : Str) (x : Char) (hn : ∀ c ∈ n, w.is c = true) (hx : w.is x = false)
    (hd : x ≠ '.') (hr : '/' ∉ x :: r) (a b : Str)
    (hab : "/hdf5_output/".toList ++ (n ++ x :: r) ++ ".h5".toList = a ++ '/' :: b) : tailMatch w b = none := by
  have hns : '/' ∉ n ++ x :: r ++ ".h5".toList := by
    intro hc
    rcases List.mem_append.1 hc with hc | hc
    · rcases List.mem_append.1 hc with hc | hc
      · have := hn _ hc; rw [word_slash] at this; cases this
      · exact hr hc
    · revert hc; decide
  have e2 : "/hdf5_output/".toList = '/' :: ("hdf5_output".toList ++ ['/']) := by decide
  rw [e2, List.append_assoc] at hab
  cases a with
  | nil =>
    simp only [List.cons_append, List.append_assoc, List.nil_append, List.cons.injEq, true_and] at hab
    rw [← hab]
    refine tail_other w "hdf5_output".toList _ '/' ?_ (word_slash w) (by decide)
    intro c hc
    have : ∀ c ∈ "hdf5_output".toList, c.toNat < 128 ∧ (c.isAlpha || c.isDigit || c == '_') = true := by decide
    rw [w.ascii c (this c hc).1]; exact (this c hc).2
  | cons z a =>
    simp only [List.cons_append, List.append_assoc, List.nil_append, List.cons.injEq] at hab
    obtain ⟨-, hab⟩ := hab
    obtain ⟨a', h⟩ := split_right (by decide : '/' ∉ "hdf5_output".toList) hab
    cases a' with
    | nil =>
      simp only [List.nil_append, List.cons.injEq, true_and] at h
      rw [← h]
      exact tail_other w n _ x hn hx hd
    | cons z a' =>
      simp only [List.cons_append, List.cons.injEq] at h
      exact absurd (by rw [List.append_assoc, List.cons_append, h.2]; simp) hns

/-- With the default base directory, a name that contains a character that is neither a word character nor a dot (such as a
hyphen) before its first dot gets no quantum numbers: the runs for all quantum numbers overwrite the same file. -/
theorem C72_hyphen_wrong (w : WordChars) (n r : Str) (x : Char) (hn : ∀ c ∈ n, w.is c = true) (hx : w.is x = false)
    (hd : x ≠ '.') (hr : '/' ∉ x :: r) (k m : List ℤ) :
    savedPath w ".".toList [] [] (n ++ x :: r) k m = "./hdf5_output/".toList ++ (n ++ x :: r) ++ ".h5".toList := by
  have e : saveName ".".toList [] [] (n ++ x :: r) = ['.'] ++ ("/hdf5_output/".toList ++ (n ++ x :: r) ++ ".h5".toList) := rfl
  have e' : "./hdf5_output/".toList ++ (n ++ x :: r) ++ ".h5".toList =
      ['.'] ++ ("/hdf5_output/".toList ++ (n ++ x :: r) ++ ".h5".toList) := by
    have : "./hdf5_output/".toList = ['.'] ++ "/hdf5_output/".toList := by decide
    rw [this]; simp
  unfold savedPath adjustPath
  rw [e, e']
  refine subAll_none w _ _ _ fun a b hab => ?_
  obtain ⟨a', h⟩ := split_right (by decide : '/' ∉ ['.']) hab
  exact out_none w n r x hn hx hd hr a' b h

/-- The quantum numbers end up in the name of a directory when the file name has a hyphen and the name of
the last directory of the base path has a dot: the path is not in the output directory. -/
theorem C72_dotted_base_wrong (w : WordChars) (d v u n r : Str) (x : Char) (hd : '\n' ∉ d) (hv : WordName w v) (hu : WordName w u)
    (hn : ∀ c ∈ n, w.is c = true) (hx : w.is x = false) (hx' : x ≠ '.') (hr : '/' ∉ x :: r) (k m : List ℤ) :
    savedPath w (d ++ '/' :: v ++ '.' :: u) [] [] (n ++ x :: r) k m =
      d ++ '/' :: v ++ qnrString k m ++ '.' :: u ++ "/hdf5_output/".toList ++ (n ++ x :: r) ++ ".h5".toList := by
  have ws : ∀ n : Str, WordName w n → '/' ∉ n := by
    intro n hn hc
    have := hn.2 _ hc; rw [word_slash] at this; cases this
  generalize hO : "/hdf5_output/".toList ++ (n ++ x :: r) ++ ".h5".toList = O
  have hOn : ∀ a b, O = a ++ '/' :: b → tailMatch w b = none := fun a b h =>
    out_none w n r x hn hx hx' hr a b (hO.trans h)
  have hO1 : ∃ o, O = '/' :: o := by
    have : "/hdf5_output/".toList = '/' :: "hdf5_output/".toList := by decide
    exact ⟨_, by rw [← hO, this]; rfl⟩
  have e : saveName (d ++ '/' :: v ++ '.' :: u) [] [] (n ++ x :: r) = d ++ '/' :: (v ++ '.' :: (u ++ O)) := by
    rw [← hO]; simp [saveName, subDirectory, saveDirectory, slashSubdir, suffix]
  have ht : tailMatch w (v ++ '.' :: (u ++ O)) = some (v, '.' :: u, O) := by
    obtain ⟨o, rfl⟩ := hO1
    obtain ⟨h1, h2⟩ := takeWhile_all v (u ++ '/' :: o) '.' hv.2 (word_dot w)
    obtain ⟨h3, h4⟩ := takeWhile_all u o '/' hu.2 (word_slash w)
    unfold tailMatch
    simp only [h1, h2, h3, h4, hv.1, hu.1, if_false]
  have hm : matchAt w (d ++ '/' :: (v ++ '.' :: (u ++ O))) = some (d ++ '/' :: v, '.' :: u, O) := by
    refine greedy_some _ _ _ (fun a b hab acc => ?_) d [] hd (by rw [ht]; rfl)
    have h1 : '/' ∉ v ++ '.' :: u := by
      simp only [List.mem_append, List.mem_cons, not_or]
      exact ⟨ws v hv, by decide, ws u hu⟩
    obtain ⟨a', h⟩ := split_right (x := O) h1 (by simpa using hab)
    rw [hOn a' b h]; rfl
  have hfin : savedPath w (d ++ '/' :: v ++ '.' :: u) [] [] (n ++ x :: r) k m =
      d ++ '/' :: v ++ qnrString k m ++ '.' :: u ++ O := by
    unfold savedPath adjustPath
    rw [e]
    cases e' : d ++ '/' :: (v ++ '.' :: (u ++ O)) with
    | nil => simp at e'
    | cons c cs =>
      rw [e'] at hm
      simp only [List.length_cons, subAll, hm, subAll_none w _ _ O hOn]
  rw [hfin, ← hO]
  simp

/-! ## Subdirectories -/

/-- The directory of a path that ends in a name without slash. -/
theorem dirName_eq (d n : Str) (h : '/' ∉ n) : dirName (d ++ '/' :: n) = d ++ ['/'] := by
  unfold dirName
  have h1 : ∀ c ∈ n.reverse, (decide (c ≠ '/')) = true := by
    intro c hc
    simp only [decide_eq_true_eq]
    rintro rfl
    exact h (List.mem_reverse.1 hc)
  have h2 := (takeWhile_all (p := fun c => decide (c ≠ '/')) n.reverse d.reverse '/' h1 (by simp)).2
  simp only [List.reverse_append, List.reverse_cons, List.append_assoc, List.singleton_append]
  rw [h2]; simp

/-- When a subdirectory is asked for, it is created, but the file is put beside it: its directory is the
output directory, and the name of the subdirectory is glued to the name of the file. -/
theorem C72_subdir_wrong (w : WordChars) (base sub name : Str) (k m : ℤ × ℤ × ℤ) (hb : '\n' ∉ base) (hs : WordName w sub)
    (hn : WordName w name) :
    savedPath w base sub [] name (l3 k) (l3 m) =
      base ++ "/hdf5_output//".toList ++ (sub ++ name) ++ quantum k m ++ ".h5".toList ∧
    subDirectory base sub [] = base ++ "/hdf5_output//".toList ++ sub ∧
    dirName (savedPath w base sub [] name (l3 k) (l3 m)) = base ++ "/hdf5_output//".toList := by
  have ws : ∀ n : Str, WordName w n → '/' ∉ n := by
    intro n hn hc
    have := hn.2 _ hc; rw [word_slash] at this; cases this
  have hlast : sub.getLast? ≠ some '/' := fun e => ws sub hs (List.mem_of_getLast? e)
  have hhead : sub.head? ≠ some '/' := fun e => ws sub hs (List.mem_of_head? e)
  have e2 : "/hdf5_output//".toList = "/hdf5_output/".toList ++ ['/'] := by decide
  have hsub : subDirectory base sub [] = base ++ "/hdf5_output//".toList ++ sub := by
    rw [e2]
    simp [subDirectory, saveDirectory, slashSubdir, hlast, hhead, hs.1]
  have hsn : WordName w (sub ++ name) := ⟨by simp [hs.1], fun c hc => (List.mem_append.1 hc).elim (hs.2 c) (hn.2 c)⟩
  have h := adjust_word w (l3 k) (l3 m) (base ++ "/hdf5_output/".toList) (sub ++ name) (by
    intro e
    rcases List.mem_append.1 e with e | e
    · exact hb e
    · revert e; decide) hsn
  have e3 : saveName base sub [] name = base ++ "/hdf5_output/".toList ++ '/' :: (sub ++ name) ++ ".h5".toList := by
    unfold saveName
    rw [hsub, e2]; simp [suffix]
  have hp : savedPath w base sub [] name (l3 k) (l3 m) =
      base ++ "/hdf5_output//".toList ++ (sub ++ name) ++ quantum k m ++ ".h5".toList := by
    unfold savedPath
    rw [e3, h, qnr_eq, e2]; simp
  refine ⟨hp, hsub, ?_⟩
  rw [hp, e2]
  have h0 : '/' ∉ (sub ++ name) ++ quantum k m ++ ".h5".toList := by
    have hdec : ∀ n : ℤ, '/' ∉ dec n := fun n hc => (dec_chars n '/' hc).2 rfl
    simp only [quantum, List.mem_append, not_or]
    refine ⟨⟨⟨ws _ hs, ws _ hn⟩, ?_⟩, by decide⟩
    simp [hdec]
  have := dirName_eq (base ++ "/hdf5_output/".toList) _ h0
  simpa using this

/-! ## Loading -/

/-- The path that is loaded for the base directory, the output directory, the name and the quantum numbers of a run is the
path of the file that the run has saved. -/
theorem C73_found (w : WordChars) (base name : Str) (k m : ℤ × ℤ × ℤ) (hb : '\n' ∉ base) (hn : WordName w name) :
    loadPath ⟨base, "hdf5_output".toList, name, [], "h5".toList, l3 k, l3 m⟩ =
      some (savedPath w base [] [] name (l3 k) (l3 m)) := by
  rw [C72_name_partial w base name k m hb hn]
  have e1 : "/hdf5_output/".toList = '/' :: ("hdf5_output".toList ++ ['/']) := by decide
  have e2 : ".h5".toList = '.' :: "h5".toList := by decide
  rw [e1, e2]
  simp [loadPath, genericName, l3, orderString, quantum]

/-- The same with a specification name, which is part of the name of the saved file. -/
theorem C73_found_specification (w : WordChars) (base name spec : Str) (k m : ℤ × ℤ × ℤ) (hb : '\n' ∉ base) (hn : WordName w name)
    (hs : WordName w spec) :
    loadPath ⟨base, "hdf5_output".toList, name, spec, "h5".toList, l3 k, l3 m⟩ =
      some (savedPath w base [] [] (name ++ '_' :: spec) (l3 k) (l3 m)) := by
  have hu : w.is '_' = true := by rw [w.ascii '_' (by decide)]; decide
  rw [C72_name_partial w base _ k m hb ⟨by simp, fun c hc => by
    rcases List.mem_append.1 hc with hc | hc
    · exact hn.2 c hc
    · rcases List.mem_cons.1 hc with rfl | hc
      · exact hu
      · exact hs.2 c hc⟩]
  have e1 : "/hdf5_output/".toList = '/' :: ("hdf5_output".toList ++ ['/']) := by decide
  have e2 : ".h5".toList = '.' :: "h5".toList := by decide
  have e3 : 0 < spec.length := List.length_pos_iff.2 hs.1
  rw [e1, e2]
  simp [loadPath, genericName, l3, orderString, quantum, e3]

theorem genericName_some (n s f : Str) (k m : ℤ × ℤ × ℤ) : ∃ p, genericName n s f (l3 k) (l3 m) = some p :=
  ⟨_, rfl⟩

theorem mapM_total {α β : Type} (f : α → Option β) (h : ∀ x, ∃ y, f x = some y) : ∀ l : List α, ∃ ys, l.mapM f = some ys ∧ ys.length = l.length
  | [] => ⟨[], rfl, rfl⟩
  | x :: l => by
    obtain ⟨y, hy⟩ := h x
    obtain ⟨ys, h1, h2⟩ := mapM_total f h l
    exact ⟨y :: ys, by rw [List.mapM_cons, hy, h1]; rfl, by simp [h2]⟩

/-- With lists of names, the number of paths is the length of the shortest of the three lists: names
without a specification name or a suffix are left out, and nothing is reported. Every name gets its path exactly when the
other lists are at least as long. -/
theorem C73_shortest (l : LoadInfo (List Str)) (k m : ℤ × ℤ × ℤ) (hk : l.k = l3 k) (hm : l.m = l3 m) :
    ∃ ps, loadPaths l = some ps ∧ ps.length = min l.baseName.length (min l.specName.length l.suffix.length) := by
  obtain ⟨ys, h1, h2⟩ := mapM_total (fun p : Str × Str × Str => genericName p.1 p.2.1 p.2.2 l.k l.m)
    (fun p => hk ▸ hm ▸ genericName_some _ _ _ k m) (l.baseName.zip (l.specName.zip l.suffix))
  refine ⟨_, by unfold loadPaths; rw [h1]; rfl, ?_⟩
  simp [h2, List.length_zip]

/-- Each path of the lists is the one of the single names at that position. -/
theorem C73_lists (l : LoadInfo (List Str)) (ps : List Str) (h : loadPaths l = some ps) (i : ℕ) (n s f : Str)
    (hn : l.baseName[i]? = some n) (hs : l.specName[i]? = some s) (hf : l.suffix[i]? = some f) :
    ps[i]? = loadPath ⟨l.baseDir, l.outputDir, n, s, f, l.k, l.m⟩ := by
  unfold loadPaths at h
  obtain ⟨ns, h1, rfl⟩ := Option.map_eq_some_iff.1 h
  have key : ∀ (xs : List (Str × Str × Str)) (ys : List Str) (g : Str × Str × Str → Option Str), xs.mapM g = some ys →
      ∀ (i : ℕ) (x : Str × Str × Str), xs[i]? = some x → ys[i]? = g x := by
    intro xs
    induction xs with
    | nil => intro ys g _ i x hx; simp at hx
    | cons a xs ih =>
      intro ys g hm i x hx
      rw [List.mapM_cons] at hm
      cases ha : g a with
      | none => simp [ha] at hm
      | some y =>
        cases hr : xs.mapM g with
        | none => simp [ha, hr] at hm
        | some zs =>
          simp [ha, hr] at hm
          subst hm
          cases i with
          | zero => simp at hx; subst hx; simp [ha]
          | succ i => simpa using ih zs g hr i x (by simpa using hx)
  have hz : (l.baseName.zip (l.specName.zip l.suffix))[i]? = some (n, s, f) := by
    simp [List.getElem?_zip_eq_some, hn, hs, hf]
  have := key _ _ _ h1 i _ hz
  rw [List.getElem?_map, this]
  rfl

/-- The characters of ASCII words. -/
def asciiWord : WordChars := ⟨fun c => c.isAlpha || c.isDigit || c == '_', fun _ _ => rfl⟩

example : WordName asciiWord "model_1".toList := by constructor <;> decide
example : asciiWord.is '-' = false := by decide
example : asciiWord.is '-' = false ∧ WordName asciiWord "v1".toList ∧ WordName asciiWord "2".toList := by
  refine ⟨by decide, ?_, ?_⟩ <;> constructor <;> decide

end Verif.Store
