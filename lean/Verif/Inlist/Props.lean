import Verif.Inlist.Spec
import Mathlib.Tactic.Ring
import Mathlib.Tactic.FieldSimp
import Mathlib.Tactic.NormNum
import Mathlib.Tactic.Linarith
/-!
# C40: inlist parsing and overriding, C59: defaults path
-/
namespace Verif.Inlist

theorem joinLines_line (s rest : Str) (h : OneLine s) :
    joinLines (s ++ '\n' :: rest) = s ++ '\n' :: (if rest = [] then [] else '\n' :: joinLines rest) := by
  induction s with
  | nil =>
    by_cases hr : rest = []
    · simp [joinLines, hr]
    · simp [joinLines, hr]
  | cons c s ih =>
    have hc : c ≠ '\n' := fun e => h (by simp [e])
    have hs : OneLine s := fun e => h (by simp [e])
    simp [joinLines, hc, ih hs]

theorem blank_ws (s : Str) (h : Blank s) : ∀ c ∈ s, isWs c = true := by
  intro c hc
  rcases h c hc with e | e <;> subst e <;> decide

theorem lex_ws (w s : Str) (h : ∀ c ∈ w, isWs c = true) : lexGo .idle false (w ++ s) = lexGo .idle false s := by
  induction w with
  | nil => rfl
  | cons c w ih =>
    have := h c (by simp)
    simp [lexGo, this, ih (fun x hx => h x (by simp [hx]))]

theorem lex_comment (st : LState) (t s : Str) (h : OneLine t) :
    lexGo st true (t ++ '\n' :: s) = lexGo st false s := by
  induction t with
  | nil => cases st <;> simp [lexGo]
  | cons c t ih =>
    have hc : c ≠ '\n' := fun e => h (by simp [e])
    have ht : OneLine t := fun e => h (by simp [e])
    cases st <;> simp [lexGo, hc] <;> exact ih ht

theorem word_not_ws (c : Char) (h : isWord c = true ∨ isQuote c = true) : isWs c = false := by
  by_contra hc
  simp only [Bool.not_eq_false, isWs, Bool.or_eq_true, beq_iff_eq] at hc
  rcases hc with ((e | e) | e) | e <;> subst e <;> revert h <;> decide

theorem word_not_pct (c : Char) (h : isWord c = true ∨ isQuote c = true) : c ≠ '%' := by
  rintro rfl; revert h; decide

theorem lex_word (acc w s : Str) (h : ∀ c ∈ w, isWord c = true ∨ isQuote c = true) :
    lexGo (.word acc) false (w ++ s) = lexGo (.word (acc ++ w)) false s := by
  induction w generalizing acc with
  | nil => simp
  | cons c w ih =>
    have hc := h c (by simp)
    have h1 := word_not_ws c hc
    have h2 := word_not_pct c hc
    rw [List.cons_append, lexGo]
    rw [if_neg (by simp [h1]), if_neg h2, if_pos (by simpa using hc), ih _ (fun x hx => h x (by simp [hx]))]
    simp

theorem lex_word_start (c : Char) (w s : Str) (hc : isWord c = true) (h : ∀ x ∈ w, isWord x = true ∨ isQuote x = true) :
    lexGo .idle false (c :: (w ++ s)) = lexGo (.word (c :: w)) false s := by
  rw [lexGo, if_neg (by simp [word_not_ws c (Or.inl hc)]), if_neg (word_not_pct c (Or.inl hc)), if_pos hc,
    lex_word _ _ _ h]
  simp

theorem lex_word_eq (acc w s : Str) (h : Blank w) :
    lexGo (.word acc) false (w ++ '=' :: s) = (lexGo .idle false s).map (fun r => acc :: ['='] :: r) := by
  cases w with
  | nil =>
    have : isWs '=' = false ∧ ¬ ('=' = '%') ∧ (isWord '=' || isQuote '=') = false := by decide
    simp [lexGo, this]
  | cons c w =>
    have hc := blank_ws _ h c (by simp)
    have : isWs '=' = false ∧ ¬ ('=' = '%') ∧ isWord '=' = false ∧ isQuote '=' = false := by decide
    rw [List.cons_append, lexGo, if_pos hc, lex_ws _ _ (fun x hx => blank_ws _ h x (by simp [hx]))]
    rw [lexGo]
    simp [this]
    rfl

theorem lex_quote (q : Char) (acc body s : Str) (h : q ∉ body) :
    lexGo (.quote q acc) false (body ++ q :: s) = (lexGo .idle false s).map ((acc ++ body ++ [q]) :: ·) := by
  induction body generalizing acc with
  | nil => simp [lexGo]
  | cons c b ih =>
    have hc : c ≠ q := fun e => h (by simp [e])
    have hb : q ∉ b := fun e => h (by simp [e])
    rw [List.cons_append, lexGo, if_neg hc, ih _ hb]
    simp

/-- Rest of a line: blanks, an optional comment, the line break. -/
def tailOf (post : Str) (cmt : Option Str) : Str :=
  post ++ (cmtText cmt ++ ['\n'])

theorem lex_nl (s : Str) : lexGo .idle false ('\n' :: s) = lexGo .idle false s := by
  have : isWs '\n' = true := by decide
  simp [lexGo, this]

theorem lex_tail_idle (post : Str) (cmt : Option Str) (hp : Blank post) (hc : ∀ t, cmt = some t → OneLine t) (s : Str) :
    lexGo .idle false (tailOf post cmt ++ s) = lexGo .idle false s := by
  unfold tailOf
  rw [List.append_assoc, lex_ws _ _ (blank_ws _ hp)]
  cases cmt with
  | none => simp [lex_nl, cmtText]
  | some t =>
    have : isWs '%' = false := by decide
    simp only [cmtText, List.append_assoc, List.cons_append, List.nil_append]
    rw [lexGo, if_neg (by simp [this]), if_pos rfl, lex_comment _ _ _ (hc t rfl)]

theorem lex_tail_word (acc post : Str) (cmt : Option Str) (hp : Blank post) (hc : ∀ t, cmt = some t → OneLine t) (s : Str) :
    lexGo (.word acc) false (tailOf post cmt ++ (if s = [] then [] else '\n' :: joinLines s)) =
      (lexGo .idle false (joinLines s)).map (acc :: ·) := by
  have hnl : isWs '\n' = true := by decide
  have hpct : isWs '%' = false := by decide
  have key : ∀ r : Str, lexGo .idle false (if s = [] then r else '\n' :: joinLines s) = if s = [] then lexGo .idle false r else lexGo .idle false (joinLines s) := by
    intro r; split_ifs <;> simp [lex_nl]
  cases post with
  | cons c post =>
    have h1 := blank_ws _ hp c (by simp)
    have : tailOf (c :: post) cmt = c :: tailOf post cmt := rfl
    rw [this, List.cons_append, lexGo, if_pos h1, lex_tail_idle post cmt (fun x hx => hp x (by simp [hx])) hc, key]
    split_ifs with hs
    · simp [hs, joinLines]
    · rfl
  | nil =>
    cases cmt with
    | none =>
      simp only [tailOf, cmtText, List.nil_append, List.cons_append]
      rw [lexGo, if_pos hnl, key]
      split_ifs with hs
      · simp [hs, joinLines]
      · rfl
    | some t =>
      simp only [tailOf, cmtText, List.nil_append, List.cons_append, List.append_assoc]
      rw [lexGo, if_neg (by simp [hpct]), if_pos rfl, lex_comment _ _ _ (hc t rfl)]
      split_ifs with hs
      · simp [hs, joinLines, lexGo]
      · rw [lexGo, if_pos hnl]

/-- The tokens a line contributes. -/
def toks (l : Line) : List Str :=
  match l.entry with
  | some (k, v) => [k, ['='], v]
  | none => []

theorem oneLine_append {a b : Str} (ha : OneLine a) (hb : OneLine b) : OneLine (a ++ b) := by
  intro h; rcases List.mem_append.1 h with h | h
  · exact ha h
  · exact hb h

theorem oneLine_blank {a : Str} (h : Blank a) : OneLine a := by
  intro hm
  rcases h _ hm with e | e <;> revert e <;> decide

theorem oneLine_word {a : Str} (h : ∀ c ∈ a, isWord c = true ∨ isQuote c = true) : OneLine a := by
  intro hm
  have := h _ hm
  revert this; decide

theorem oneLine_value {t : Str} (h : IsValue t) : OneLine t := by
  rcases h with ⟨c, r, rfl, hc, hr⟩ | ⟨q, b, hq, _, hb, rfl⟩
  · apply oneLine_word
    intro x hx
    rcases List.mem_cons.1 hx with e | e
    · exact Or.inl (e ▸ hc)
    · exact hr x e
  · intro hm
    have hqn : q ≠ '\n' := by rintro rfl; revert hq; decide
    rcases List.mem_cons.1 hm with e | e
    · exact hqn e.symm
    · rcases List.mem_append.1 e with e | e
      · exact hb e
      · simp at e; exact hqn e.symm

/-- Tokenizing a line followed by the rest of the file. -/
theorem lex_line (l : Line) (hl : l.Wf) (rest : Str) :
    lexGo .idle false (joinLines (l.render ++ rest)) = (lexGo .idle false (joinLines rest)).map (toks l ++ ·) := by
  have fin : lexGo .idle false (if rest = [] then [] else '\n' :: joinLines rest) = lexGo .idle false (joinLines rest) := by
    split_ifs with h
    · simp [h, joinLines]
    · rw [lex_nl]
  cases l with
  | blank ws =>
    have : (Line.blank ws).render ++ rest = ws ++ '\n' :: rest := by simp [Line.render]
    rw [this, joinLines_line _ _ (oneLine_blank hl), lex_ws _ _ (blank_ws _ hl), lex_nl, fin]
    simp [toks, Line.entry]
  | comment ws t =>
    obtain ⟨h1, h2⟩ := hl
    have : (Line.comment ws t).render ++ rest = (ws ++ '%' :: t) ++ '\n' :: rest := by simp [Line.render]
    have hp : OneLine ('%' :: t) := by
      intro hm; rcases List.mem_cons.1 hm with e | e
      · revert e; decide
      · exact h2 e
    rw [this, joinLines_line _ _ (oneLine_append (oneLine_blank h1) hp)]
    rw [List.append_assoc, lex_ws _ _ (blank_ws _ h1), List.cons_append]
    have : isWs '%' = false := by decide
    rw [lexGo, if_neg (by simp [this]), if_pos rfl, lex_comment _ _ _ h2, fin]
    simp [toks, Line.entry]
  | assign pre key s1 s2 value post cmt =>
    obtain ⟨h1, h2, h3, h4, hk0, hk, hv, hc⟩ := hl
    obtain ⟨kc, kr, rfl⟩ := List.exists_cons_of_ne_nil hk0
    have hcl : OneLine (cmtText cmt) := by
      cases cmt with
      | none => simp [OneLine, cmtText]
      | some t =>
        intro hm; rcases List.mem_cons.1 hm with e | e
        · revert e; decide
        · exact hc t rfl e
    have heq : OneLine (['='] : Str) := by unfold OneLine; decide
    have hkl : OneLine (kc :: kr) := oneLine_word (fun c hc => Or.inl (hk c hc))
    have hone : OneLine (pre ++ ((kc :: kr) ++ (s1 ++ (['='] ++ (s2 ++ (value ++ (post ++ cmtText cmt))))))) :=
      oneLine_append (oneLine_blank h1) (oneLine_append hkl (oneLine_append (oneLine_blank h2) (oneLine_append heq
        (oneLine_append (oneLine_blank h3) (oneLine_append (oneLine_value hv) (oneLine_append (oneLine_blank h4) hcl))))))
    have hr : (Line.assign pre (kc :: kr) s1 s2 value post cmt).render ++ rest =
        (pre ++ ((kc :: kr) ++ (s1 ++ (['='] ++ (s2 ++ (value ++ (post ++ cmtText cmt))))))) ++ '\n' :: rest := by
      simp [Line.render]
    rw [hr, joinLines_line _ _ hone]
    have hr2 : ∀ R : Str, (pre ++ ((kc :: kr) ++ (s1 ++ (['='] ++ (s2 ++ (value ++ (post ++ cmtText cmt))))))) ++ '\n' :: R =
        pre ++ (kc :: (kr ++ (s1 ++ '=' :: (s2 ++ (value ++ (tailOf post cmt ++ R)))))) := by
      intro R; simp [tailOf]
    rw [hr2, lex_ws _ _ (blank_ws _ h1), lex_word_start _ _ _ (hk _ (by simp)) (fun x hx => Or.inl (hk x (by simp [hx]))),
      lex_word_eq _ _ _ h2, lex_ws _ _ (blank_ws _ h3)]
    have hlast : lexGo .idle false (value ++ (tailOf post cmt ++ (if rest = [] then [] else '\n' :: joinLines rest))) =
        (lexGo .idle false (joinLines rest)).map (value :: ·) := by
      rcases hv with ⟨c, r, rfl, hcw, hrw⟩ | ⟨q, b, hq, hqb, hb, rfl⟩
      · rw [List.cons_append, lex_word_start _ _ _ hcw hrw, lex_tail_word _ _ _ h4 hc]
      · have e : q :: (b ++ [q]) ++ (tailOf post cmt ++ (if rest = [] then [] else '\n' :: joinLines rest)) =
            q :: (b ++ q :: (tailOf post cmt ++ (if rest = [] then [] else '\n' :: joinLines rest))) := by simp
        have hq1 : isWs q = false := word_not_ws q (Or.inr hq)
        have hq2 := word_not_pct q (Or.inr hq)
        have hq3 : isWord q = false := by
          simp only [isQuote, Bool.or_eq_true, beq_iff_eq] at hq
          rcases hq with e | e <;> subst e <;> decide
        rw [e, lexGo, if_neg (by simp [hq1]), if_neg hq2, if_neg (by simp [hq3]), if_pos hq, lex_quote _ _ _ _ hqb,
          lex_tail_idle _ _ h4 hc, fin]
        simp
    rw [hlast]
    cases lexGo .idle false (joinLines rest) <;> simp [toks, Line.entry]

theorem lex_render (ls : List Line) (h : ∀ l ∈ ls, l.Wf) :
    lexGo .idle false (joinLines (render ls)) = some ((ls.map toks).flatten) := by
  induction ls with
  | nil => simp [render, joinLines, lexGo]
  | cons l ls ih =>
    have : render (l :: ls) = l.render ++ render ls := by simp [render]
    rw [this, lex_line l (h l (by simp)), ih (fun x hx => h x (by simp [hx]))]
    simp

theorem get_set (d : Dict) (k k' : Str) (v : PyVal) :
    (d.set k v).get k' = if k' = k then some v else d.get k' := by
  unfold Dict.set
  split_ifs with h h1 h1
  · subst h1
    induction d with
    | nil => simp at h
    | cons e d ih =>
      by_cases he : e.1 = k'
      · simp [Dict.get, he]
      · have : d.any (·.1 == k') = true := by simpa [he] using h
        have := ih this
        simpa [Dict.get, he] using this
  · clear h
    induction d with
    | nil => simp [Dict.get]
    | cons e d ih =>
      by_cases he : e.1 = k
      · have : (e.1 == k') = false := by rw [he]; simp [Ne.symm h1]
        simpa [Dict.get, he, this, Ne.symm h1] using ih
      · by_cases he' : e.1 = k'
        · simp [Dict.get, he, he', h1]
        · simpa [Dict.get, he, he'] using ih
  · subst h1
    have hn : d.find? (·.1 == k') = none := by
      rw [List.find?_eq_none]; intro x hx
      have := h
      simp only [List.any_eq_true, not_exists, not_and] at this
      exact this x hx
    simp [Dict.get, List.find?_append, hn]
  · simp only [Dict.get, List.find?_append]
    have : (k == k') = false := by simp [Ne.symm h1]
    cases d.find? (·.1 == k') <;> simp [this]

/-- Running the assignments in order. -/
theorem parseToks_spec (E : Ext) (ls : List Line) (d : Dict) :
    parseToks E d ((ls.map toks).flatten) =
      (entries ls).foldlM (fun d e => (typer E e.2).map (d.set e.1)) d := by
  induction ls generalizing d with
  | nil => simp [entries, parseToks]
  | cons l ls ih =>
    cases hl : l.entry with
    | none => simp [entries, toks, hl]; simpa [entries] using ih d
    | some e =>
      obtain ⟨k, v⟩ := e
      have h1 : ((l :: ls).map toks).flatten = k :: ['='] :: v :: (ls.map toks).flatten := by
        simp [toks, hl]
      have h2 : entries (l :: ls) = (k, v) :: entries ls := by simp [entries, hl]
      rw [h1, h2, parseToks]
      cases ht : typer E v with
      | none => simp [ht]
      | some x => simp [ht, ih]

theorem fold_get (E : Ext) (es : List (Str × Str)) (d d' : Dict)
    (h : es.foldlM (fun d e => (typer E e.2).map (d.set e.1)) d = some d') (k : Str) :
    d'.get k = match lastAssign k es with
      | some t => typer E t
      | none => d.get k := by
  induction es generalizing d with
  | nil => simp at h; subst h; simp [lastAssign]
  | cons e es ih =>
    simp only [List.foldlM_cons, Option.bind_eq_bind] at h
    cases ht : typer E e.2 with
    | none => simp [ht] at h
    | some x =>
      simp only [ht, Option.map_some, Option.bind_some] at h
      rw [ih _ h, get_set]
      simp only [lastAssign, List.reverse_cons, List.find?_append]
      cases hf : es.reverse.find? (fun e => e.1 == k) with
      | some y => simp
      | none =>
        by_cases hk : e.1 = k
        · simp [hk, ht]
        · have h2 : (e.1 == k) = false := by simp [hk]
          simp [h2, Ne.symm hk]

theorem fold_total (E : Ext) (es : List (Str × Str)) (d : Dict) (h : ∀ e ∈ es, (typer E e.2).isSome) :
    ∃ d', es.foldlM (fun d e => (typer E e.2).map (d.set e.1)) d = some d' := by
  induction es generalizing d with
  | nil => exact ⟨d, rfl⟩
  | cons e es ih =>
    obtain ⟨x, hx⟩ := Option.isSome_iff_exists.1 (h e (by simp))
    simp only [List.foldlM_cons, hx, Option.map_some, Option.bind_eq_bind, Option.bind_some]
    exact ih _ (fun y hy => h y (by simp [hy]))

theorem fold_fail (E : Ext) (es : List (Str × Str)) (d : Dict) (e : Str × Str) (he : e ∈ es) (h : typer E e.2 = none) :
    es.foldlM (fun d e => (typer E e.2).map (d.set e.1)) d = none := by
  induction es generalizing d with
  | nil => cases he
  | cons e' es ih =>
    simp only [List.foldlM_cons, Option.bind_eq_bind]
    rcases List.mem_cons.1 he with e1 | e1
    · subst e1; simp [h]
    · cases typer E e'.2 with
      | none => rfl
      | some x => simp [ih _ e1]

theorem parseInlist_render (E : Ext) (ls : List Line) (h : ∀ l ∈ ls, l.Wf) (d : Dict) :
    parseInlist E (render ls) d = (entries ls).foldlM (fun d e => (typer E e.2).map (d.set e.1)) d := by
  simp [parseInlist, lex_render ls h, parseToks_spec]

/-- Two inlist files stored where `get_inlist_values` looks for them. -/
structure Files (fs : Str → Option Str) (path : Str) (user defaults : List Line) : Prop where
  user : fs path = some (render user)
  defaults : ∃ dp, defaultsPath path = some dp ∧ fs dp = some (render defaults)

/-- **C40.** For every pair of well-formed inlist files whose values are all readable, the merged
inlist exists, and for every key it holds the value of the user's last assignment to the key, or
else of the defaults' last assignment, or else nothing. -/
theorem C40_user_overrides_default_partial (E : Ext) (fs : Str → Option Str) (path : Str) (user defaults : List Line)
    (hf : Files fs path user defaults) (hu : ∀ l ∈ user, l.Wf) (hd : ∀ l ∈ defaults, l.Wf)
    (hr : ∀ e ∈ entries user ++ entries defaults, (typer E e.2).isSome) :
    ∃ d, getInlistValues E fs path = some d ∧
      ∀ k, d.get k = match lastAssign k (entries user), lastAssign k (entries defaults) with
        | some t, _ => typer E t
        | none, some t => typer E t
        | none, none => none := by
  obtain ⟨dp, h1, h2⟩ := hf.defaults
  obtain ⟨d1, hd1⟩ := fold_total E (entries defaults) [] (fun e he => hr e (by simp [he]))
  obtain ⟨d2, hd2⟩ := fold_total E (entries user) d1 (fun e he => hr e (by simp [he]))
  refine ⟨d2, ?_, ?_⟩
  · simp [getInlistValues, h1, h2, hf.user, parseInlist_render E _ hd, parseInlist_render E _ hu, hd1, hd2]
  · intro k
    rw [fold_get E _ _ _ hd2 k]
    cases lastAssign k (entries user) with
    | some t => rfl
    | none =>
      simp only
      rw [fold_get E _ _ _ hd1 k]
      cases lastAssign k (entries defaults) <;> rfl

/-- **C40.** One unreadable value in either file makes the whole read raise: no entry is silently
dropped. -/
theorem C40_unreadable_raises (E : Ext) (fs : Str → Option Str) (path : Str) (user defaults : List Line)
    (hf : Files fs path user defaults) (hu : ∀ l ∈ user, l.Wf) (hd : ∀ l ∈ defaults, l.Wf)
    (e : Str × Str) (he : e ∈ entries user ++ entries defaults) (hr : typer E e.2 = none) :
    getInlistValues E fs path = none := by
  obtain ⟨dp, h1, h2⟩ := hf.defaults
  simp only [getInlistValues, h1, h2, hf.user, Option.bind_eq_bind, Option.bind_some, parseInlist_render E _ hd,
    parseInlist_render E _ hu]
  rcases List.mem_append.1 he with h | h
  · cases (entries defaults).foldlM (fun (d : Dict) e => (typer E e.2).map (d.set e.1)) ([] : Dict) with
    | none => rfl
    | some d => simp [fold_fail E _ d e h hr]
  · simp [fold_fail E _ [] e h hr]

/-- A value written with a blank inside (a list `[1, 2]`, say) is cut at the blank: the rest of the
line is taken for further entries. -/
theorem C40_blank_in_list_wrong (E : Ext) (hE : E.int "[1,".toList = none) :
    parseInlist E "x = [1, 2]\n".toList [] = none := by
  have h : lexGo .idle false (joinLines "x = [1, 2]\n".toList) =
      some ["x".toList, "=".toList, "[1,".toList, "2]".toList] := by decide +kernel
  have h2 : typer E "[1,".toList = E.int "[1,".toList := rfl
  simp only [parseInlist, h, Option.bind_some, parseToks, h2, hE, Option.bind_none]

/-- Non-vacuity of C40: two small files. -/
def exUser : List Line :=
  [.comment [] "user".toList, .assign [] "a".toList [' '] [' '] "5".toList [] (some " five".toList),
   .assign [' '] "s".toList [] [] "'x y%'".toList [' '] none, .assign [] "a".toList [] [] "-7".toList [] none]
def exDef : List Line :=
  [.blank [' '], .assign [] "a".toList [' '] [' '] "1".toList [] none,
   .assign [] "b".toList [' '] [' '] "2.5".toList ['\t'] (some [])]
def exFs (p : Str) : Option Str :=
  if p = "r/user/x.in".toList then some (render exUser)
  else if p = "r/defaults/x.defaults".toList then some (render exDef) else none
def exExt : Ext := ⟨fun _ => none, fun _ => none⟩

example : Files exFs "r/user/x.in".toList exUser exDef :=
  ⟨by decide +kernel, ⟨"r/defaults/x.defaults".toList, by decide +kernel, by decide +kernel⟩⟩
example : ∀ l ∈ exUser, l.Wf := by
  have hv1 : IsValue "5".toList := Or.inl ⟨'5', [], rfl, by decide, by simp⟩
  have hv2 : IsValue "-7".toList := Or.inl ⟨'-', ['7'], rfl, by decide, by decide⟩
  have hv3 : IsValue "'x y%'".toList := Or.inr ⟨'\'', "x y%".toList, by decide, by decide, by unfold OneLine; decide, rfl⟩
  intro l hl
  simp only [exUser, List.mem_cons, List.not_mem_nil, or_false] at hl
  rcases hl with rfl | rfl | rfl | rfl
  · exact ⟨by simp [Blank], by unfold OneLine; decide⟩
  · exact ⟨by unfold Blank; decide, by unfold Blank; decide, by unfold Blank; decide, by unfold Blank; decide, by decide, by decide, hv1,
      fun t ht => by cases ht; unfold OneLine; decide⟩
  · exact ⟨by unfold Blank; decide, by unfold Blank; decide, by unfold Blank; decide, by unfold Blank; decide, by decide, by decide, hv3,
      fun t ht => by cases ht⟩
  · exact ⟨by unfold Blank; decide, by unfold Blank; decide, by unfold Blank; decide, by unfold Blank; decide, by decide, by decide, hv2,
      fun t ht => by cases ht⟩
example : getInlistValues exExt exFs "r/user/x.in".toList =
    some [("a".toList, .int (-7)), ("b".toList, .float (5/2)), ("s".toList, .str "x y%".toList)] := by
  decide +kernel

/-! ## The defaults path -/

theorem greedyTo_none {β : Type} (c : Char) (k : Str → Str → Option β) (acc s : Str) (h : c ∉ s) :
    greedyTo c k acc s = none := by
  induction s generalizing acc with
  | nil => rfl
  | cons x xs ih =>
    have hx : x ≠ c := fun e => h (by simp [e])
    have hxs : c ∉ xs := fun e => h (by simp [e])
    simp only [greedyTo, ih _ hxs, hx, if_false, ite_self]

/-- All occurrences of `c` fail. -/
theorem greedyTo_fail {β : Type} (c : Char) (k : Str → Str → Option β) (acc s : Str)
    (h : ∀ p r, s = p ++ c :: r → k (acc ++ p) r = none) : greedyTo c k acc s = none := by
  induction s generalizing acc with
  | nil => rfl
  | cons x xs ih =>
    have h1 : greedyTo c k (acc ++ [x]) xs = none := by
      apply ih
      intro p r e
      have := h (x :: p) r (by simp [e])
      simpa using this
    have h2 : (if x = c then k acc xs else none) = none := by
      split_ifs with hx
      · have := h [] xs (by simp [hx]); simpa using this
      · rfl
    simp only [greedyTo, h1, ite_self, h2]

/-- The chosen occurrence is the last one at which the continuation succeeds. -/
theorem greedyTo_last {β : Type} (c : Char) (k : Str → Str → Option β) (acc p r : Str) (b : β) (hp : OneLine p)
    (hc : c ≠ '\n')
    (hk : k (acc ++ p) r = some b) (h : ∀ p' r', r = p' ++ c :: r' → k (acc ++ (p ++ c :: p')) r' = none) :
    greedyTo c k acc (p ++ c :: r) = some b := by
  induction p generalizing acc with
  | nil =>
    have h1 : greedyTo c k (acc ++ [c]) r = none := by
      apply greedyTo_fail
      intro p' r' e
      have := h p' r' e
      simpa using this
    have hk' : k acc r = some b := by simpa using hk
    simp [greedyTo, h1, hk']
  | cons x p ih =>
    have hx : x ≠ '\n' := fun e => hp (by simp [e])
    have hp' : OneLine p := fun e => hp (by simp [e])
    have := ih (acc ++ [x]) hp' (by simpa using hk) (by
      intro p' r' e
      have := h p' r' e
      simpa using this)
    simp [greedyTo, hx, this]

/-- **C59.** For an inlist at `root/dir/base.ext` the defaults file read is
`root/defaults/base.defaults`. -/
theorem C59_defaults_path_partial (root dir base ext : Str) (h1 : OneLine root) (h2 : OneLine dir) (h3 : OneLine base)
    (hd : '/' ∉ dir) (hb : '/' ∉ base) (he : '/' ∉ ext) (hed : '.' ∉ ext) :
    defaultsPath (root ++ '/' :: (dir ++ '/' :: (base ++ '.' :: ext))) =
      some (root ++ "/defaults/".toList ++ base ++ ".defaults".toList) := by
  have hrest : '/' ∉ base ++ '.' :: ext := by
    intro hm
    rcases List.mem_append.1 hm with h | h
    · exact hb h
    · rcases List.mem_cons.1 h with h | h
      · revert h; decide
      · exact he h
  have inner : ∀ g1 : Str, greedyTo '.' (fun g2 _ => some (g1, g2)) [] (base ++ '.' :: ext) = some (g1, base) := by
    intro g1
    apply greedyTo_last _ _ _ _ _ _ h3 (by decide) (by simp)
    intro p' r' e
    exact absurd (by simp [e] : '.' ∈ ext) hed
  have mid : ∀ g1 : Str, greedyTo '/' (fun _ r2 => greedyTo '.' (fun g2 _ => some (g1, g2)) [] r2) []
      (dir ++ '/' :: (base ++ '.' :: ext)) = some (g1, base) := by
    intro g1
    apply greedyTo_last _ _ _ _ _ _ h2 (by decide) (inner g1)
    intro p' r' e
    exact absurd (by rw [e]; simp) hrest
  have : regexDefaults (root ++ '/' :: (dir ++ '/' :: (base ++ '.' :: ext))) = some (root, base) := by
    unfold regexDefaults
    apply greedyTo_last _ _ _ _ _ _ h1 (by decide) (by simpa using mid root)
    intro p' r' e
    -- only the slash after `dir` is left; after it there is no slash
    apply greedyTo_none
    have : p' = dir ∧ r' = base ++ '.' :: ext := by
      have hp' : '/' ∉ p' ∨ '/' ∈ p' := (Classical.em _).symm
      rcases hp' with hp' | hp'
      · have e1 : dir.length = p'.length := by
          have t1 : (dir ++ '/' :: (base ++ '.' :: ext)).takeWhile (· ≠ '/') = dir := by
            rw [List.takeWhile_append_of_pos (by intro x hx; have : x ≠ '/' := (fun e => hd (e ▸ hx)); simpa using this)]; simp
          have t2 : (p' ++ '/' :: r').takeWhile (· ≠ '/') = p' := by
            rw [List.takeWhile_append_of_pos (by intro x hx; have : x ≠ '/' := (fun e => hp' (e ▸ hx)); simpa using this)]; simp
          rw [← t1, ← t2, e]
        obtain ⟨a, b⟩ := List.append_inj e e1
        exact ⟨a.symm, by simpa using b.symm⟩
      · exfalso
        obtain ⟨u, v, rfl⟩ := List.append_of_mem hp'
        have c1 : (dir ++ '/' :: (base ++ '.' :: ext)).count '/' = 1 := by
          rw [List.count_append, List.count_cons, List.count_eq_zero.2 hd, List.count_eq_zero.2 hrest]; simp
        rw [e] at c1
        simp only [List.count_append, List.count_cons] at c1
        simp at c1
        omega
    rw [this.2]; exact hrest
  simp [defaultsPath, this]

/-- **C59.** A path with fewer than two slashes raises `NameError`: an inlist given as `dir/base.ext`
or `base.ext` is never read. -/
theorem C59_relative_raises (dir rest : Str) (hd : '/' ∉ dir) (hr : '/' ∉ rest) :
    defaultsPath rest = none ∧ defaultsPath (dir ++ '/' :: rest) = none := by
  constructor
  · simp [defaultsPath, regexDefaults, greedyTo_none _ _ _ _ hr]
  · have : regexDefaults (dir ++ '/' :: rest) = none := by
      unfold regexDefaults
      apply greedyTo_fail
      intro p r e
      apply greedyTo_none
      intro hm
      have c1 : (dir ++ '/' :: rest).count '/' = 1 := by
        rw [List.count_append, List.count_cons, List.count_eq_zero.2 hd, List.count_eq_zero.2 hr]; simp
      rw [e, List.count_append, List.count_cons] at c1
      have := List.count_pos_iff.2 hm
      simp at c1
      omega
    simp [defaultsPath, this]

theorem last_piece (a b n n' : Str) (hn : '/' ∉ n) (hn' : '/' ∉ n') (e : a ++ '/' :: n = b ++ '/' :: n') : n = n' := by
  have t : ∀ (u v : Str), '/' ∉ v → ((u ++ '/' :: v).reverse.takeWhile (· ≠ '/')).reverse = v := by
    intro u v hv
    rw [List.reverse_append, List.reverse_cons, List.append_assoc, List.singleton_append,
      List.takeWhile_append_of_pos (by
        intro x hx
        have : x ≠ '/' := fun e => hv (e ▸ List.mem_reverse.1 hx)
        simpa using this)]
    simp
  rw [← t a n hn, ← t b n' hn', e]

/-- **C59 refuted** without an extension: for a file without a dot in a directory with one (and a file name of one line), the
directory is taken for the file; without any dot in the path nothing is found. -/
theorem C59_no_extension_wrong (root dir base ext name : Str) (h1 : OneLine root) (h2 : OneLine dir) (h3 : OneLine base)
    (hd : '/' ∉ dir) (hb : '/' ∉ base) (he : '/' ∉ ext) (hed : '.' ∉ ext) (hn : '/' ∉ name) (hnd : '.' ∉ name) :
    defaultsPath (root ++ '/' :: (dir ++ '/' :: (base ++ '.' :: ext) ++ '/' :: name)) =
      some (root ++ "/defaults/".toList ++ base ++ ".defaults".toList) ∧
    ∀ path : Str, '.' ∉ path → defaultsPath path = none := by
  constructor
  · have hB : '/' ∉ base ++ '.' :: ext := by
      intro hm
      rcases List.mem_append.1 hm with h | h
      · exact hb h
      · rcases List.mem_cons.1 h with h | h
        · revert h; decide
        · exact he h
    have inner : ∀ g1 : Str, greedyTo '.' (fun g2 _ => some (g1, g2)) [] (base ++ '.' :: ext ++ '/' :: name) =
        some (g1, base) := by
      intro g1
      rw [List.append_assoc, List.cons_append]
      apply greedyTo_last _ _ _ _ _ _ h3 (by decide) (by simp)
      intro p' r' e
      have : '.' ∈ ext ++ '/' :: name := by rw [e]; simp
      rcases List.mem_append.1 this with h | h
      · exact absurd h hed
      · rcases List.mem_cons.1 h with h | h
        · exact absurd h (by decide)
        · exact absurd h hnd
    have mid : ∀ g1 : Str, greedyTo '/' (fun _ r2 => greedyTo '.' (fun g2 _ => some (g1, g2)) [] r2) []
        (dir ++ '/' :: (base ++ '.' :: ext ++ '/' :: name)) = some (g1, base) := by
      intro g1
      apply greedyTo_last _ _ _ _ _ _ h2 (by decide) (inner g1)
      intro p' r' e
      have c1 : '/' ∉ r' := by
        have c : (base ++ '.' :: ext ++ '/' :: name).count '/' = 1 := by
          rw [List.count_append, List.count_cons, List.count_eq_zero.2 hB, List.count_eq_zero.2 hn]; simp
        rw [e, List.count_append, List.count_cons] at c
        simp only [beq_self_eq_true, if_true] at c
        exact List.count_eq_zero.1 (by omega)
      rw [← last_piece _ _ _ _ hn c1 e]
      exact greedyTo_none _ _ _ _ hnd
    have : regexDefaults (root ++ '/' :: (dir ++ '/' :: (base ++ '.' :: ext) ++ '/' :: name)) = some (root, base) := by
      rw [List.append_assoc, List.cons_append]
      unfold regexDefaults
      apply greedyTo_last _ _ _ _ _ _ h1 (by decide) (by simpa using mid root)
      intro p' r' e
      apply greedyTo_fail
      intro p'' r'' e''
      have c1 : '/' ∉ r'' := by
        have c : (dir ++ '/' :: (base ++ '.' :: ext ++ '/' :: name)).count '/' = 2 := by
          rw [List.count_append, List.count_cons, List.count_append, List.count_cons, List.count_eq_zero.2 hd,
            List.count_eq_zero.2 hB, List.count_eq_zero.2 hn]; simp
        rw [e, e'', List.count_append, List.count_cons, List.count_append, List.count_cons] at c
        simp only [beq_self_eq_true, if_true] at c
        exact List.count_eq_zero.1 (by omega)
      have e3 : (dir ++ '/' :: (base ++ '.' :: ext)) ++ '/' :: name = (p' ++ '/' :: p'') ++ '/' :: r'' := by
        rw [e''] at e
        simpa using e
      rw [← last_piece _ _ _ _ hn c1 e3]
      exact greedyTo_none _ _ _ _ hnd
    rw [defaultsPath, this]; rfl
  · intro path hp
    have : regexDefaults path = none := by
      unfold regexDefaults
      apply greedyTo_fail
      intro p r e
      apply greedyTo_fail
      intro p' r' e'
      apply greedyTo_none
      intro hm
      exact hp (by rw [e, e']; simp [hm])
    simp [defaultsPath, this]

example : defaultsPath "a/b/c.d/inlist".toList = some "a/defaults/c.defaults".toList := by decide +kernel

end Verif.Inlist
