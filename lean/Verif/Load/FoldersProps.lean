import Verif.Load.Folders
import Verif.Load.Basic
import Verif.Inlist.Props
/-!
# C167: the older format of the information folders
-/
namespace Verif.Load
open Verif.Inlist (Str LState joinLines isDig isWs isQuote Blank OneLine joinLines_line)
open Verif.Opts (Val)

/-! ### What such a file is -/

namespace Folders

/-- The comments and the names of the values they announce. -/
def known : List (String × String) :=
  (["base folder/directory", "default output folder/directory", "default profile substrings", "default suffix"].map ("MESA " ++ ·)).zip
    ["base_dir", "mesa_output_dir", "mesa_profile_substrings", "mesa_suffix"] ++
  (["base folder/directory", "default output folder/directory", "default detail substring", "default summary substring"].map
    ("GYRE " ++ ·)).zip ["gyre_base_dir", "gyre_output_dir", "gyre_detail_substring", "gyre_summary_substring"] ++
  (["structure base folder/directory", "structure default output folder/directory", "default structure substrings",
    "default structure suffix"].map ("POLYTROPE " ++ ·)).zip
    ["poly_base_dir", "poly_struct_dir", "poly_struct_substrings", "poly_struct_suffix"] ++
  (["base folder/directory", "default output folder/directory", "default detail substring", "default summary substring"].map
    ("POLYTROPE mode " ++ ·)).zip ["poly_mode_base_dir", "poly_mode_dir", "poly_mode_substrings", "poly_summary_substring"]

/-- A text in quotes. -/
structure Quoted where
  q : Char
  body : Str

def Quoted.render (t : Quoted) : Str := t.q :: (t.body ++ [t.q])

/-- One line, the quote is not inside, no escapes, no `#`. -/
def Quoted.Wf (t : Quoted) : Prop := (t.q = '\'' ∨ t.q = '"') ∧ t.q ∉ t.body ∧ '\\' ∉ t.body ∧ '\n' ∉ t.body ∧ '#' ∉ t.body

/-- A value: a text, or at least two texts in brackets. -/
inductive Value where
  | text (t : Quoted)
  | tuple (t : Quoted) (ts : List Quoted)

/-- Letters, digits, underscores, points. -/
def Plain (s : Str) : Prop := ∀ c ∈ s, c.isAlphanum = true ∨ c = '_' ∨ c = '.'

def Value.Wf : Value → Prop
  | .text t => t.Wf
  | .tuple t ts => ts ≠ [] ∧ ∀ x ∈ t :: ts, (x.q = '\'' ∨ x.q = '"') ∧ Plain x.body

/-- The text of a value; no blanks in a tuple. -/
def Value.render : Value → Str
  | .text t => t.render
  | .tuple t ts => '(' :: (t.render ++ (ts.flatMap fun x => ',' :: x.render) ++ [')'])

/-- The Python value. -/
def Value.val : Value → IVal
  | .text t => .v (.str t.body)
  | .tuple t ts => .tuple ((t :: ts).map fun x => .str x.body)

/-- A line: empty, the announcement of a value, or a value, possibly followed by blanks. -/
inductive Line where
  | blank (ws : Str)
  | name (c : String)
  | value (v : Value) (post : Str)

def Line.Wf : Line → Prop
  | .blank ws => Blank ws
  | .name c => c ∈ known.map (·.1)
  | .value v post => v.Wf ∧ Blank post

def Line.render : Line → Str
  | .blank ws => ws ++ ['\n']
  | .name c => ("# " ++ c).toList ++ ['\n']
  | .value v post => v.render ++ post ++ ['\n']

def render (ls : List Line) : Str := ls.flatMap Line.render

/-- The comments, in order. -/
def names (ls : List Line) : List String := ls.filterMap fun
  | .name c => some c
  | _ => none

/-- The values, in order. -/
def values (ls : List Line) : List Value := ls.filterMap fun
  | .value v _ => some v
  | _ => none

/-- The name announced by a comment. -/
def key (c : String) : Str := ((known.lookup c).getD "").toList

/-- The `i`-th value under the `i`-th name. -/
def filled (d : Dict IVal) : List Value → List String → Dict IVal
  | v :: vs, c :: cs => filled (put d (key c) v.val) vs cs
  | _, _ => d

end Folders

open Folders

/-! ### The tokenizers -/

theorem lexIdle (L : LexCfg) (c : Char) (cs : Str) : lexWith L .idle false (c :: cs) =
    if L.ws c then lexWith L .idle false cs
    else if L.comment c then lexWith L .idle true cs
    else if L.word c then lexWith L (.word [c]) false cs
    else if isQuote c then lexWith L (.quote c [c]) false cs
    else tok [c] (lexWith L .idle false cs) := by rw [lexWith]

theorem lexWord (L : LexCfg) (acc : Str) (c : Char) (cs : Str) : lexWith L (.word acc) false (c :: cs) =
    if L.ws c then tok acc (lexWith L .idle false cs)
    else if L.comment c then lexWith L (.word acc) true cs
    else if L.word c || isQuote c then lexWith L (.word (acc ++ [c])) false cs
    else tok acc (tok [c] (lexWith L .idle false cs)) := by rw [lexWith]

theorem lexWith_nl_value (s : Str) : lexWith valueLex .idle false ('\n' :: s) = lexWith valueLex .idle false s := by
  simp [lexWith, valueLex, show isWs '\n' = true by decide]

theorem lexWith_nl_name (s : Str) : lexWith nameLex .idle false ('\n' :: s) = lexWith nameLex .idle false s := by
  simp [lexWith, nameLex]

/-- Tokens from the end of a line on. -/
theorem rest_value (s : Str) : lexWith valueLex .idle false ('\n' :: (if s = [] then [] else '\n' :: joinLines s)) =
    lexWith valueLex .idle false (joinLines s) := by
  rw [lexWith_nl_value]
  split_ifs with h
  · rw [h]; rfl
  · rw [lexWith_nl_value]

theorem rest_name (s : Str) : lexWith nameLex .idle false ('\n' :: (if s = [] then [] else '\n' :: joinLines s)) =
    lexWith nameLex .idle false (joinLines s) := by
  rw [lexWith_nl_name]
  split_ifs with h
  · rw [h]; rfl
  · rw [lexWith_nl_name]

theorem lexWith_ws (L : LexCfg) (w s : Str) (h : ∀ c ∈ w, L.ws c = true) : lexWith L .idle false (w ++ s) = lexWith L .idle false s := by
  induction w with
  | nil => rfl
  | cons c w ih => simp [lexWith, h c (by simp), ih (fun x hx => h x (by simp [hx]))]

theorem lexWith_quote (L : LexCfg) (q : Char) (acc body s : Str) (h : q ∉ body) :
    lexWith L (.quote q acc) false (body ++ q :: s) = tok (acc ++ body ++ [q]) (lexWith L .idle false s) := by
  induction body generalizing acc with
  | nil => simp [lexWith]
  | cons c b ih =>
    have hc : c ≠ q := fun e => h (by simp [e])
    have hb : q ∉ b := fun e => h (by simp [e])
    rw [List.cons_append, lexWith, if_neg hc, ih _ hb]
    simp

theorem lexWith_skip (L : LexCfg) (t s : Str) (h : OneLine t) : lexWith L .idle true (t ++ '\n' :: s) = lexWith L .idle false s := by
  induction t with
  | nil => simp [lexWith]
  | cons c t ih =>
    have hc : c ≠ '\n' := fun e => h (by simp [e])
    have ht : OneLine t := fun e => h (by simp [e])
    simp [lexWith, hc]; exact ih ht

theorem lexWith_word (L : LexCfg) (acc w s : Str) (h : ∀ c ∈ w, L.ws c = false ∧ L.comment c = false ∧ (L.word c || isQuote c) = true) :
    lexWith L (.word acc) false (w ++ s) = lexWith L (.word (acc ++ w)) false s := by
  induction w generalizing acc with
  | nil => simp
  | cons c w ih =>
    obtain ⟨h1, h2, h3⟩ := h c (by simp)
    rw [List.cons_append, lexWith, if_neg (by simp [h1]), if_neg (by simp [h2]), if_pos h3, ih _ (fun x hx => h x (by simp [hx]))]
    simp

/-- A quoted token. -/
theorem lexWith_quoted (L : LexCfg) (t : Quoted) (s : Str) (hq : t.q = '\'' ∨ t.q = '"') (hb : t.q ∉ t.body)
    (hL : ∀ q, isQuote q = true → L.ws q = false ∧ L.comment q = false ∧ L.word q = false) :
    lexWith L .idle false (t.render ++ s) = tok t.render (lexWith L .idle false s) := by
  have hq' : isQuote t.q = true := by rcases hq with e | e <;> rw [e] <;> decide
  obtain ⟨h1, h2, h3⟩ := hL _ hq'
  unfold Quoted.render
  rw [List.cons_append, List.append_assoc, lexWith, if_neg (by simp [h1]), if_neg (by simp [h2]), if_neg (by simp [h3]), if_pos hq']
  exact lexWith_quote L t.q [t.q] t.body s hb

theorem quoteChars {q : Char} (h : isQuote q = true) : q = '\'' ∨ q = '"' := by
  simpa [isQuote] using h

theorem valueLex_quote (q : Char) (h : isQuote q = true) : valueLex.ws q = false ∧ valueLex.comment q = false ∧ valueLex.word q = false := by
  rcases quoteChars h with e | e <;> rw [e] <;> decide

theorem nameLex_quote (q : Char) (h : isQuote q = true) : nameLex.ws q = false ∧ nameLex.comment q = false ∧ nameLex.word q = false := by
  rcases quoteChars h with e | e <;> rw [e] <;> decide

/-- A character of a plain text. -/
theorem plain_word {c : Char} (h : c.isAlphanum = true ∨ c = '_' ∨ c = '.') : (stdWord c || c == '.') = true := by
  rcases h with h | h | h
  · have : stdWord c = true := by
      simp only [Char.isAlphanum, Char.isAlpha, Char.isUpper, Char.isLower, Char.isDigit, Bool.or_eq_true, Bool.and_eq_true,
        decide_eq_true_eq] at h
      simp only [stdWord, isDig, Bool.or_eq_true, Bool.and_eq_true, decide_eq_true_eq]
      rcases h with (h | h) | h
      · exact Or.inl (Or.inl (Or.inr h))
      · exact Or.inl (Or.inl (Or.inl h))
      · exact Or.inl (Or.inr h)
    rw [this]; rfl
  · subst h; decide
  · subst h; decide

theorem word_ws {c : Char} (h : valueLex.word c = true) : valueLex.ws c = false ∧ valueLex.comment c = false := by
  constructor
  · by_contra hc
    simp only [valueLex, Bool.not_eq_false, isWs, Bool.or_eq_true, beq_iff_eq] at hc
    rcases hc with ((e | e) | e) | e <;> subst e <;> revert h <;> decide
  · by_contra hc
    simp only [valueLex, Bool.not_eq_false, beq_iff_eq] at hc
    subst hc; revert h; decide

/-! ### Names -/

/-- The tokens with a `#`. -/
def hashes (r : List Str × Bool) : List Str × Bool := (r.1.filter fun x => x.contains '#', r.2)

theorem hashes_tok_no {t : Str} (h : '#' ∉ t) (r : List Str × Bool) : hashes (tok t r) = hashes r := by
  simp [hashes, tok, h]

theorem hashes_tok_yes {t : Str} (h : '#' ∈ t) (r : List Str × Bool) : hashes (tok t r) = tok t (hashes r) := by
  simp [hashes, tok, h]

theorem blank_name (w s : Str) (hw : Blank w) : ∀ st : LState, (st = .idle ∨ ∃ acc, st = .word acc ∧ '#' ∉ acc) →
    hashes (lexWith nameLex st false (w ++ '\n' :: s)) = hashes (lexWith nameLex .idle false ('\n' :: s)) := by
  induction w with
  | nil =>
    rintro st (rfl | ⟨acc, rfl, h⟩)
    · rfl
    · rw [List.nil_append, lexWith_nl_name]
      rw [lexWord, if_pos (by decide), hashes_tok_no h]
  | cons c w ih =>
    have hw' : Blank w := fun x hx => hw x (by simp [hx])
    have hc := hw c (by simp)
    rintro st (rfl | ⟨acc, rfl, h⟩)
    · rcases hc with rfl | rfl
      · rw [List.cons_append, lexIdle, if_neg (by decide), if_neg (by decide), if_pos (by decide)]
        exact ih hw' _ (Or.inr ⟨_, rfl, by decide⟩)
      · rw [List.cons_append, lexIdle, if_neg (by decide), if_neg (by decide), if_neg (by decide), if_neg (by decide),
          hashes_tok_no (by decide)]
        exact ih hw' _ (Or.inl rfl)
    · rcases hc with rfl | rfl
      · rw [List.cons_append, lexWord, if_neg (by decide), if_neg (by decide), if_pos (by decide)]
        exact ih hw' _ (Or.inr ⟨_, rfl, by simpa using h⟩)
      · rw [List.cons_append, lexWord, if_neg (by decide), if_neg (by decide), if_neg (by decide), hashes_tok_no h,
          hashes_tok_no (by decide)]
        exact ih hw' _ (Or.inl rfl)

theorem plain_no {s : Str} (h : Plain s) (c : Char) (hc : ¬ (c.isAlphanum = true ∨ c = '_' ∨ c = '.')) : c ∉ s := fun g => hc (h c g)

theorem quoted_no_hash {t : Quoted} (hq : t.q = '\'' ∨ t.q = '"') (hb : '#' ∉ t.body) : '#' ∉ t.render := by
  unfold Quoted.render
  rcases hq with e | e <;> rw [e] <;> simpa using hb

theorem plain_quote {t : Quoted} (hq : t.q = '\'' ∨ t.q = '"') (hb : Plain t.body) : t.q ∉ t.body := by
  rcases hq with e | e <;> rw [e] <;> exact plain_no hb _ (by decide)

theorem items_name (ts : List Quoted) (s : Str) (h : ∀ x ∈ ts, (x.q = '\'' ∨ x.q = '"') ∧ Plain x.body) :
    hashes (lexWith nameLex .idle false ((ts.flatMap fun x => ',' :: x.render) ++ s)) = hashes (lexWith nameLex .idle false s) := by
  induction ts with
  | nil => rfl
  | cons t ts ih =>
    obtain ⟨h1, h2⟩ := h t (by simp)
    rw [List.flatMap_cons, List.append_assoc, List.cons_append, lexWith, if_neg (by decide), if_neg (by decide), if_neg (by decide),
      if_neg (by decide), hashes_tok_no (by decide), lexWith_quoted _ _ _ h1 (plain_quote h1 h2) nameLex_quote,
      hashes_tok_no (quoted_no_hash h1 (plain_no h2 _ (by decide)))]
    exact ih fun x hx => h x (by simp [hx])

theorem value_name (v : Value) (s : Str) (h : v.Wf) :
    hashes (lexWith nameLex .idle false (v.render ++ s)) = hashes (lexWith nameLex .idle false s) := by
  cases v with
  | text t =>
    obtain ⟨h1, h2, _, _, h5⟩ := h
    rw [Value.render, lexWith_quoted _ _ _ h1 h2 nameLex_quote, hashes_tok_no (quoted_no_hash h1 h5)]
  | tuple t ts =>
    obtain ⟨_, h⟩ := h
    obtain ⟨h1, h2⟩ := h t (by simp)
    rw [Value.render, List.cons_append, lexWith, if_neg (by decide), if_neg (by decide), if_neg (by decide),
      if_neg (by decide), hashes_tok_no (by decide), List.append_assoc, List.append_assoc,
      lexWith_quoted _ _ _ h1 (plain_quote h1 h2) nameLex_quote, hashes_tok_no (quoted_no_hash h1 (plain_no h2 _ (by decide))),
      items_name _ _ (fun x hx => h x (by simp [hx]))]
    rw [List.cons_append, List.nil_append, lexWith, if_neg (by decide), if_neg (by decide), if_neg (by decide),
      if_neg (by decide), hashes_tok_no (by decide)]

/-- A comment of the characters that the second tokenizer takes as one word. -/
theorem comment_name (c s : Str) (h : ∀ x ∈ c, nameLex.word x = true) :
    hashes (lexWith nameLex .idle false ('#' :: ' ' :: (c ++ '\n' :: s))) = tok ('#' :: ' ' :: c) (hashes (lexWith nameLex .idle false ('\n' :: s))) := by
  rw [lexWith, if_neg (by decide), if_neg (by decide), if_pos (by decide)]
  rw [show ' ' :: (c ++ '\n' :: s) = (' ' :: c) ++ '\n' :: s from rfl, lexWith_word nameLex _ (' ' :: c)]
  · rw [lexWord, if_pos (by decide), hashes_tok_yes (by simp), lexWith_nl_name]
    simp
  · intro x hx
    have hx' : nameLex.word x = true := by
      rcases List.mem_cons.1 hx with e | e
      · subst e; decide
      · exact h x e
    refine ⟨?_, rfl, by rw [hx']; rfl⟩
    by_contra hn
    simp only [nameLex, Bool.not_eq_false, beq_iff_eq] at hn
    subst hn; revert hx'; decide

theorem known_words : ∀ c ∈ known.map (·.1), ∀ x ∈ c.toList, nameLex.word x = true := by decide +kernel

theorem known_convert : ∀ c ∈ known.map (·.1), convert c.toList = some (key c) := by decide +kernel

theorem known_oneLine : ∀ c ∈ known.map (·.1), '\n' ∉ c.toList := by decide +kernel

/-! ### Values -/

theorem post_value (post s : Str) (hp : Blank post) (acc : Str) :
    lexWith valueLex (.word acc) false (post ++ '\n' :: s) = tok acc (lexWith valueLex .idle false ('\n' :: s)) := by
  cases post with
  | nil => rw [List.nil_append, lexWith_nl_value, lexWord, if_pos (by decide)]
  | cons c p =>
    have hc := Inlist.blank_ws _ hp
    rw [List.cons_append, lexWord, if_pos (show valueLex.ws c = true from hc c (by simp)), lexWith_ws valueLex p _ (fun x hx => hc x (by simp [hx]))]

theorem value_value (v : Value) (post s : Str) (h : v.Wf) (hp : Blank post) :
    lexWith valueLex .idle false (v.render ++ post ++ '\n' :: s) = tok v.render (lexWith valueLex .idle false ('\n' :: s)) := by
  cases v with
  | text t =>
    obtain ⟨h1, h2, _⟩ := h
    rw [Value.render, List.append_assoc, lexWith_quoted _ _ _ h1 h2 valueLex_quote, lexWith_ws valueLex post _ (Inlist.blank_ws _ hp)]
  | tuple t ts =>
    obtain ⟨_, h⟩ := h
    rw [Value.render]
    have e : '(' :: (t.render ++ (ts.flatMap fun x => ',' :: x.render) ++ [')']) ++ post ++ '\n' :: s =
        '(' :: ((t.render ++ ((ts.flatMap fun x => ',' :: x.render) ++ [')'])) ++ (post ++ '\n' :: s)) := by simp
    rw [e, lexWith, if_neg (by decide), if_neg (by decide), if_pos (by decide)]
    rw [lexWith_word, post_value _ _ hp]
    · simp
    · intro c hc
      -- all characters of the tuple belong to the word
      have hall : ∀ x ∈ t :: ts, ∀ c ∈ x.render, valueLex.ws c = false ∧ valueLex.comment c = false ∧ (valueLex.word c || isQuote c) = true := by
        intro x hx c hc
        obtain ⟨h1, h2⟩ := h x hx
        have hqq : ∀ q, (q = '\'' ∨ q = '"') → valueLex.ws q = false ∧ valueLex.comment q = false ∧ (valueLex.word q || isQuote q) = true := by
          rintro q (rfl | rfl) <;> decide
        unfold Quoted.render at hc
        rcases List.mem_cons.1 hc with rfl | hc
        · exact hqq _ h1
        · rcases List.mem_append.1 hc with hc | hc
          · have hw : valueLex.word c = true := by
              have := plain_word (h2 c hc)
              simp only [Bool.or_eq_true] at this
              simp only [valueLex, Bool.or_eq_true]
              tauto
            exact ⟨(word_ws hw).1, (word_ws hw).2, by rw [hw]; rfl⟩
          · rw [List.mem_singleton] at hc
            subst hc
            exact hqq _ h1
      rcases List.mem_append.1 hc with hc | hc
      · exact hall t (by simp) c hc
      · rcases List.mem_append.1 hc with hc | hc
        · obtain ⟨x, hx, hc⟩ := List.mem_flatMap.1 hc
          rcases List.mem_cons.1 hc with rfl | hc
          · decide
          · exact hall x (by simp [hx]) c hc
        · rw [List.mem_singleton] at hc
          subst hc; decide

/-! ### Evaluation of the values -/

theorem quotedGo_body (q : Char) (acc body : Str) (h1 : q ∉ body) (h2 : '\\' ∉ body) (h3 : '\n' ∉ body) :
    quotedGo q acc (body ++ [q]) = some (acc ++ body) := by
  induction body generalizing acc with
  | nil => simp [quotedGo]
  | cons c b ih =>
    simp only [List.mem_cons, not_or] at h1 h2 h3
    rw [List.cons_append, quotedGo, if_neg (fun e => h1.1 e.symm), if_neg (by
      rintro (e | e)
      · exact h2.1 e.symm
      · exact h3.1 e.symm), ih _ h1.2 h2.2 h3.2]
    simp

theorem tupleGo_item (q : Char) (acc : List Str) (comma : Bool) (s body rest : Str) (h1 : q ∉ body) (h2 : '\\' ∉ body) :
    tupleGo (.item q s) acc comma (body ++ q :: rest) = tupleGo .after (acc ++ [s ++ body]) comma rest := by
  induction body generalizing s with
  | nil => simp [tupleGo]
  | cons c b ih =>
    simp only [List.mem_cons, not_or] at h1 h2
    rw [List.cons_append, tupleGo, if_neg (fun e => h1.1 e.symm), if_neg (fun e => h2.1 e.symm), ih _ h1.2 h2.2]
    simp

theorem tupleGo_items (ts : List Quoted) (acc : List Str) (comma : Bool) (h : ∀ x ∈ ts, (x.q = '\'' ∨ x.q = '"') ∧ Plain x.body)
    (hc : comma = true ∨ ts ≠ []) :
    tupleGo .after acc comma ((ts.flatMap fun x => ',' :: x.render) ++ [')']) =
      some (some (.tuple ((acc ++ ts.map (·.body)).map .str))) := by
  induction ts generalizing acc comma with
  | nil =>
    have : comma = true := hc.resolve_right (by simp)
    subst this
    simp [tupleGo, bracketed]
  | cons t ts ih =>
    obtain ⟨h1, h2⟩ := h t (by simp)
    have hq : isQuote t.q = true := by rcases h1 with e | e <;> rw [e] <;> decide
    rw [List.flatMap_cons, List.append_assoc, List.cons_append, tupleGo, if_pos rfl, Quoted.render, List.cons_append, tupleGo,
      if_pos hq, List.append_assoc, List.cons_append, List.nil_append,
      tupleGo_item _ _ _ _ _ _ (plain_quote h1 h2) (plain_no h2 _ (by decide)),
      ih _ _ (fun x hx => h x (by simp [hx])) (Or.inl rfl)]
    simp

theorem eval_value (E : Str → Option IVal) (v : Value) (h : v.Wf) : litEval E v.render = some v.val := by
  cases v with
  | text t =>
    obtain ⟨h1, h2, h3, h4, _⟩ := h
    have hq : isQuote t.q = true := by rcases h1 with e | e <;> rw [e] <;> decide
    rw [Value.render, Quoted.render, litEval]
    simp only [hq, if_true]
    rw [quotedGo_body _ _ _ h2 h3 h4]
    rfl
  | tuple t ts =>
    obtain ⟨hne, h⟩ := h
    obtain ⟨h1, h2⟩ := h t (by simp)
    have hq : isQuote t.q = true := by rcases h1 with e | e <;> rw [e] <;> decide
    have key : tupleGo .start [] false (t.render ++ (ts.flatMap fun x => ',' :: x.render) ++ [')']) =
        some (some (.tuple ((t :: ts).map fun x => .str x.body))) := by
      rw [List.append_assoc, Quoted.render, List.cons_append, tupleGo, if_pos hq, List.append_assoc, List.cons_append, List.nil_append,
        tupleGo_item _ _ _ _ _ _ (plain_quote h1 h2) (plain_no h2 _ (by decide)),
        tupleGo_items _ _ _ (fun x hx => h x (by simp [hx])) (Or.inr hne)]
      simp
    rw [Value.render, litEval]
    simp only [show isQuote '(' = false by decide, Bool.false_eq_true, if_false, if_true]
    rw [key]
    rfl

/-! ### Whole files -/

theorem oneLine_value (v : Value) (h : v.Wf) : '\n' ∉ v.render := by
  have hq : ∀ t : Quoted, (t.q = '\'' ∨ t.q = '"') → '\n' ∉ t.body → '\n' ∉ t.render := by
    intro t h1 h2
    unfold Quoted.render
    rcases h1 with e | e <;> rw [e] <;> simpa using h2
  cases v with
  | text t => exact hq t h.1 h.2.2.2.1
  | tuple t ts =>
    obtain ⟨_, h⟩ := h
    have hx : ∀ x ∈ t :: ts, '\n' ∉ x.render := fun x hx => hq x (h x hx).1 (plain_no (h x hx).2 _ (by decide))
    unfold Value.render
    simp only [List.mem_cons, List.mem_append, List.mem_flatMap, not_or, not_exists, not_and]
    exact ⟨by decide, ⟨hx t (by simp), fun x hm => ⟨by decide, hx x (by simp [hm])⟩⟩, by decide, by simp⟩

theorem blank_oneLine {w : Str} (h : Blank w) : '\n' ∉ w := fun g => by
  rcases h _ g with e | e <;> exact absurd e (by decide)

theorem file_cons (l : Line) (ls : List Line) : Folders.render (l :: ls) = l.render ++ Folders.render ls := rfl

/-- The names read from a file. -/
theorem file_names (ls : List Line) (tail : Str) (h : ∀ l ∈ ls, l.Wf) :
    hashes (lexWith nameLex .idle false (joinLines (Folders.render ls ++ tail))) =
      (((names ls).map fun c => '#' :: ' ' :: c.toList) ++ (hashes (lexWith nameLex .idle false (joinLines tail))).1,
        (hashes (lexWith nameLex .idle false (joinLines tail))).2) := by
  induction ls with
  | nil => rfl
  | cons l ls ih =>
    have ih := ih fun x hx => h x (by simp [hx])
    have hl := h l (by simp)
    rw [file_cons, List.append_assoc]
    cases l with
    | blank ws =>
      have e : joinLines ((Line.blank ws).render ++ (Folders.render ls ++ tail)) = _ :=
        (congrArg joinLines (by simp [Line.render])).trans (joinLines_line ws (Folders.render ls ++ tail) (blank_oneLine hl))
      rw [e, blank_name _ _ hl _ (Or.inl rfl), rest_name, ih]
      rfl
    | name c =>
      have e : joinLines ((Line.name c).render ++ (Folders.render ls ++ tail)) = _ :=
        (congrArg joinLines (by simp [Line.render])).trans (joinLines_line ('#' :: ' ' :: c.toList) (Folders.render ls ++ tail) (by
          have := known_oneLine c hl
          unfold OneLine
          simpa using this))
      rw [e]
      show hashes (lexWith nameLex .idle false ('#' :: ' ' :: (c.toList ++ '\n' :: _))) = _
      rw [comment_name _ _ (known_words c hl), rest_name, ih]
      simp [tok, names]
    | value v post =>
      obtain ⟨hv, hp⟩ := hl
      have e : joinLines ((Line.value v post).render ++ (Folders.render ls ++ tail)) = _ :=
        (congrArg joinLines (by simp [Line.render])).trans (joinLines_line (v.render ++ post) (Folders.render ls ++ tail) (by
          have h1 := oneLine_value v hv
          have h2 := blank_oneLine hp
          unfold OneLine
          simp [h1, h2]))
      rw [e, List.append_assoc, value_name _ _ hv, blank_name _ _ hp _ (Or.inl rfl), rest_name, ih]
      rfl

/-- The values read from a file. -/
theorem file_values (ls : List Line) (h : ∀ l ∈ ls, l.Wf) :
    lexWith valueLex .idle false (joinLines (Folders.render ls)) = ((values ls).map Value.render, false) := by
  induction ls with
  | nil => rfl
  | cons l ls ih =>
    have ih := ih fun x hx => h x (by simp [hx])
    have hl := h l (by simp)
    rw [file_cons]
    cases l with
    | blank ws =>
      have e : joinLines ((Line.blank ws).render ++ Folders.render ls) = _ :=
        (congrArg joinLines (by simp [Line.render])).trans (joinLines_line ws (Folders.render ls) (blank_oneLine hl))
      rw [e, lexWith_ws valueLex ws _ (Inlist.blank_ws _ hl), rest_value, ih]
      rfl
    | name c =>
      have e : joinLines ((Line.name c).render ++ Folders.render ls) = _ :=
        (congrArg joinLines (by simp [Line.render])).trans (joinLines_line ('#' :: ' ' :: c.toList) (Folders.render ls) (by
          have := known_oneLine c hl
          unfold OneLine
          simpa using this))
      rw [e, List.cons_append, lexWith, if_neg (by decide), if_pos (by decide), lexWith_skip valueLex (' ' :: c.toList) _ (by
        have := known_oneLine c hl
        unfold OneLine
        simpa using this), ← lexWith_nl_value, rest_value, ih]
      rfl
    | value v post =>
      obtain ⟨hv, hp⟩ := hl
      have e : joinLines ((Line.value v post).render ++ Folders.render ls) = _ :=
        (congrArg joinLines (by simp [Line.render])).trans (joinLines_line (v.render ++ post) (Folders.render ls) (by
          have h1 := oneLine_value v hv
          have h2 := blank_oneLine hp
          unfold OneLine
          simp [h1, h2]))
      rw [e, value_value _ _ _ hv hp, rest_value, ih]
      rfl

theorem convert_names (cs : List String) (h : ∀ c ∈ cs, c ∈ known.map (·.1)) :
    ((cs.map fun c => '#' :: ' ' :: c.toList).mapM fun x => convert (x.drop 2)) = some (cs.map key) := by
  induction cs with
  | nil => rfl
  | cons c cs ih =>
    rw [List.map_cons, List.mapM_cons]
    simp only [List.drop_succ_cons, List.drop_zero]
    rw [known_convert c (h c (by simp)), ih fun x hx => h x (by simp [hx])]
    rfl

theorem names_known (ls : List Line) (h : ∀ l ∈ ls, l.Wf) : ∀ c ∈ names ls, c ∈ known.map (·.1) := by
  intro c hc
  obtain ⟨l, hl, e⟩ := List.mem_filterMap.1 hc
  cases l with
  | name c' => cases e; exact h _ hl
  | blank _ => cases e
  | value _ _ => cases e

theorem fill_values (E : Str → Option IVal) (vs : List Value) (h : ∀ v ∈ vs, v.Wf) : ∀ (d : Dict IVal) (cs : List String),
    fill E d (vs.map Value.render) false (cs.map key) = some (filled d vs cs) := by
  induction vs with
  | nil => intro d cs; cases cs <;> rfl
  | cons v vs ih =>
    intro d cs
    cases cs with
    | nil => rfl
    | cons c cs =>
      rw [List.map_cons, List.map_cons, fill, eval_value E v (h v (by simp)), Option.bind_some,
        ih (fun x hx => h x (by simp [hx]))]
      rfl

/-- **C167.** What is read from a file of comments and values, in any order and with empty lines anywhere: the `i`-th value of the
file under the name of the `i`-th comment, the surplus of comments or values is ignored, without an error.  Missing for the full
property: that a value is the one below its comment (`C167_shift_wrong`), and the other forms of values and lines. -/
theorem C167_read_partial (E : Str → Option IVal) (d : Dict IVal) (ls : List Line) (h : ∀ l ∈ ls, l.Wf) :
    parseFolders E d (Folders.render ls) = some (filled d (values ls) (names ls)) := by
  have hn := file_names ls [] h
  rw [List.append_nil] at hn
  have hv : ∀ v ∈ values ls, v.Wf := by
    intro v hv
    obtain ⟨l, hl, e⟩ := List.mem_filterMap.1 hv
    cases l with
    | value v' p => cases e; exact (h _ hl).1
    | blank _ => cases e
    | name _ => cases e
  have e2 : (lexWith nameLex .idle false (joinLines (Folders.render ls))).2 = false := (Prod.ext_iff.1 hn).2
  have e1 : ((lexWith nameLex .idle false (joinLines (Folders.render ls))).1.filter fun x => x.contains '#') =
      (names ls).map fun c => '#' :: ' ' :: c.toList := by
    have := (Prod.ext_iff.1 hn).1
    simpa [hashes, joinLines, lexWith] using this
  unfold parseFolders nameList
  simp only [e1, e2, file_values ls h, convert_names _ (names_known ls h), Option.bind_some, Bool.false_eq_true, if_false]
  exact fill_values E _ hv d _

/-- A file of two values, with empty lines and blanks. -/
def demoFile : List Line :=
  [.blank " ".toList, .name "MESA base folder/directory", .value (.text ⟨'\'', "/data/my-star 1/".toList⟩) "  ".toList, .blank [],
   .name "GYRE default detail substring", .value (.tuple ⟨'"', "detail".toList⟩ [⟨'\'', ".h5".toList⟩]) []]

theorem demoFile_wf : ∀ l ∈ demoFile, l.Wf := by
  intro l hl
  simp only [demoFile, List.mem_cons, List.not_mem_nil, or_false] at hl
  rcases hl with rfl | rfl | rfl | rfl | rfl | rfl
  · show Blank " ".toList
    unfold Blank; decide
  · show _ ∈ _
    decide +kernel
  · refine ⟨⟨Or.inl rfl, by decide, by decide, by decide, by decide⟩, ?_⟩
    unfold Blank; decide
  · show Blank []
    intro c hc; cases hc
  · show _ ∈ _
    decide +kernel
  · refine ⟨⟨by simp, ?_⟩, ?_⟩
    · intro x hx
      simp only [List.mem_cons, List.not_mem_nil, or_false] at hx
      rcases hx with rfl | rfl
      · exact ⟨Or.inr rfl, by unfold Plain; decide⟩
      · exact ⟨Or.inl rfl, by unfold Plain; decide⟩
    · intro c hc; cases hc

example (E : Str → Option IVal) : parseFolders E [] (Folders.render demoFile) =
    some [("base_dir".toList, .v (.str "/data/my-star 1/".toList)),
      ("gyre_detail_substring".toList, .tuple [.str "detail".toList, .str ".h5".toList])] :=
  (C167_read_partial E [] demoFile demoFile_wf).trans rfl

/-- The lines that are not empty. -/
def Folders.Line.full : Line → Bool
  | .blank _ => false
  | _ => true

theorem names_full (ls : List Line) : names (ls.filter Line.full) = names ls := by
  unfold names
  rw [List.filterMap_filter]
  congr 1
  funext l
  cases l <;> rfl

theorem values_full (ls : List Line) : values (ls.filter Line.full) = values ls := by
  unfold values
  rw [List.filterMap_filter]
  congr 1
  funext l
  cases l <;> rfl

/-- **C167.** In a file in which every comment is followed by its value, with empty lines anywhere, every name gets the value below
its last comment; what was known under other names before stays.  Missing for the full property: other files, see below. -/
theorem C167_pairs_partial (E : Str → Option IVal) (d : Dict IVal) (ls : List Line) (h : ∀ l ∈ ls, l.Wf)
    (es : List (String × Value × Str)) (hp : ls.filter Line.full = es.flatMap fun e => [.name e.1, .value e.2.1 e.2.2]) :
    ∃ d', parseFolders E d (Folders.render ls) = some d' ∧ ∀ k : Str, get d' k =
      match es.reverse.find? fun e => (known.lookup e.1).any fun n => n.toList = k with
      | some e => some e.2.1.val
      | none => get d k := by
  refine ⟨_, C167_read_partial E d ls h, ?_⟩
  have hk : ∀ c ∈ names ls, c ∈ known.map (·.1) := names_known ls h
  rw [← names_full, ← values_full] at *
  rw [hp] at *
  have hn : names (es.flatMap fun e => [.name e.1, .value e.2.1 e.2.2]) = es.map (·.1) := by
    clear hp hk h
    induction es with
    | nil => rfl
    | cons e es ih => rw [List.flatMap_cons]; unfold names at *; simp [ih]
  have hv : values (es.flatMap fun e => [.name e.1, .value e.2.1 e.2.2]) = es.map (·.2.1) := by
    clear hp hk h hn
    induction es with
    | nil => rfl
    | cons e es ih => rw [List.flatMap_cons]; unfold values at *; simp [ih]
  rw [hn] at hk
  rw [hn, hv]
  clear hp hn hv h
  have hkey : ∀ c ∈ known.map (·.1), ∃ n, known.lookup c = some n ∧ key c = n.toList := by
    intro c hc
    have : ∀ c ∈ known.map (·.1), (known.lookup c).isSome = true := by decide +kernel
    obtain ⟨n, hn⟩ := Option.isSome_iff_exists.1 (this c hc)
    exact ⟨n, hn, by rw [key, hn]; rfl⟩
  intro k
  induction es generalizing d with
  | nil => rfl
  | cons e es ih =>
    rw [List.map_cons, List.map_cons, filled, ih _ (fun c hc => hk c (by simp [hc])), List.reverse_cons, List.find?_append]
    obtain ⟨n, h1, h2⟩ := hkey e.1 (hk e.1 (by simp))
    cases hf : es.reverse.find? fun e => (known.lookup e.1).any fun n => n.toList = k with
    | some x => rfl
    | none =>
      simp only [Option.none_or, List.find?_singleton, h1, Option.any_some, h2]
      rw [get_put]
      by_cases hnk : n.toList = k
      · simp [hnk]
      · simp [hnk]

example (E : Str → Option IVal) : ∃ d', parseFolders E [("mesa_suffix".toList, .v (.str ".dat".toList))] (Folders.render demoFile) = some d' ∧
    get d' "mesa_suffix".toList = some (.v (.str ".dat".toList)) ∧ get d' "base_dir".toList = some (.v (.str "/data/my-star 1/".toList)) := by
  obtain ⟨d', h1, h2⟩ := C167_pairs_partial E [("mesa_suffix".toList, .v (.str ".dat".toList))] demoFile demoFile_wf
    [("MESA base folder/directory", .text ⟨'\'', "/data/my-star 1/".toList⟩, "  ".toList),
     ("GYRE default detail substring", .tuple ⟨'"', "detail".toList⟩ [⟨'\'', ".h5".toList⟩], [])] rfl
  exact ⟨d', h1, (h2 _).trans rfl, (h2 _).trans rfl⟩

/-- **C167.** The comments that are known, and that the names are those of the TOML format, in its order. -/
theorem C167_names : (∀ c k : String, convert c.toList = some k.toList ↔ (c, k) ∈ known) ∧ known.map (·.2) = infoItems.map (·.key) := by
  refine ⟨fun c k => ?_, by decide +kernel⟩
  have hnd : ((convDict.map fun e => (e.1.toList, e.2.toList)).map (·.1)).Nodup := by decide +kernel
  have hmem : known = convDict := by decide +kernel
  rw [hmem]
  constructor
  · intro h
    obtain ⟨e, he, hq⟩ := List.mem_map.1 (get_mem h)
    obtain ⟨h1, h2⟩ := Prod.ext_iff.1 hq
    rw [← String.toList_inj.1 h1, ← String.toList_inj.1 h2]
    exact he
  · intro h
    exact get_of_mem hnd (List.mem_map.2 ⟨_, h, rfl⟩)

/-! ### What cannot be read -/

theorem mapM_none {α β : Type} (f : α → Option β) (l : List α) (a : α) (ha : a ∈ l) (hf : f a = none) : l.mapM f = none := by
  induction l with
  | nil => cases ha
  | cons x l ih =>
    rw [List.mapM_cons]
    rcases List.mem_cons.1 ha with e | e
    · subst e; rw [hf]; rfl
    · rw [ih e]; cases f x <;> rfl

theorem mapM_nil {α β : Type} (f : α → Option β) (l : List α) (h : l.mapM f = some []) : l = [] := by
  cases l with
  | nil => rfl
  | cons x l =>
    rw [List.mapM_cons] at h
    cases hx : f x with
    | none => rw [hx] at h; cases h
    | some y =>
      rw [hx] at h
      cases hl : l.mapM f with
      | none => rw [hl] at h; cases h
      | some ys => rw [hl] at h; cases h

theorem joinLines_one (a b : Str) (h : '\n' ∉ a) : joinLines (a ++ b) = a ++ joinLines b := by
  induction a with
  | nil => rfl
  | cons c a ih =>
    have hc : c ≠ '\n' := fun e => h (by simp [e])
    have ha : '\n' ∉ a := fun e => h (by simp [e])
    simp [joinLines, hc, ih ha]

theorem parse_none_of_token (E : Str → Option IVal) (d : Dict IVal) (text t : Str)
    (h : t ∈ (hashes (lexWith nameLex .idle false (joinLines text))).1) (hc : convert (t.drop 2) = none) :
    parseFolders E d text = none := by
  have h' : t ∈ (lexWith nameLex .idle false (joinLines text)).1.filter fun x => x.contains '#' := h
  unfold parseFolders nameList
  simp only
  rw [mapM_none _ _ t h' hc]
  rfl

/-- **C167 (refutation).** A comment with other words than the known ones ends the run, wherever it is in the file. -/
theorem C167_unknown_wrong (E : Str → Option IVal) (d : Dict IVal) (ls : List Line) (h : ∀ l ∈ ls, l.Wf) (c : String) (rest : Str)
    (hw : ∀ x ∈ c.toList, x.isAlphanum = true ∨ x = ' ' ∨ x = '/' ∨ x = '_') (hc : c ∉ known.map (·.1)) :
    parseFolders E d (Folders.render ls ++ (("# " ++ c).toList ++ '\n' :: rest)) = none := by
  have hno : '\n' ∉ c.toList := fun g => by
    rcases hw _ g with e | e | e | e
    · exact absurd e (by decide)
    · exact absurd e (by decide)
    · exact absurd e (by decide)
    · exact absurd e (by decide)
  have hword : ∀ x ∈ c.toList, nameLex.word x = true := by
    intro x hx
    rcases hw x hx with e | e | e | e
    · have := plain_word (c := x) (Or.inl e)
      simp only [Bool.or_eq_true, beq_iff_eq] at this
      rcases this with h1 | h1
      · simp only [nameLex, h1, Bool.true_or]
      · subst h1; exact absurd e (by decide)
    · subst e; decide
    · subst e; decide
    · subst e; decide
  apply parse_none_of_token E d _ ('#' :: ' ' :: c.toList)
  · rw [file_names ls _ h]
    have e : joinLines (("# " ++ c).toList ++ '\n' :: rest) = _ :=
      (congrArg joinLines (by simp)).trans (joinLines_line ('#' :: ' ' :: c.toList) rest (by unfold OneLine; simpa using hno))
    rw [e]
    show _ ∈ _ ++ (hashes (lexWith nameLex .idle false ('#' :: ' ' :: (c.toList ++ '\n' :: _)))).1
    rw [comment_name _ _ hword]
    simp [tok]
  · show convert c.toList = none
    refine get_none.2 fun g => hc ?_
    have hmem : known = convDict := by decide +kernel
    rw [hmem]
    rw [List.map_map] at g
    obtain ⟨e, he, hq⟩ := List.mem_map.1 g
    exact List.mem_map.2 ⟨e, he, String.toList_inj.1 hq⟩

/-- Blanks at the end of a comment are other words. -/
example (E : Str → Option IVal) (d : Dict IVal) : parseFolders E d "# MESA default suffix \n'.dat'\n".toList = none :=
  C167_unknown_wrong E d [] (by simp) "MESA default suffix " "'.dat'\n".toList (by decide) (by decide +kernel)

/-- **C167 (refutation).** A text with a `#` in quotes ends the run, wherever it is in the file. -/
theorem C167_hash_wrong (E : Str → Option IVal) (d : Dict IVal) (ls : List Line) (h : ∀ l ∈ ls, l.Wf) (t : Quoted) (rest : Str)
    (hq : t.q = '\'' ∨ t.q = '"') (hb : t.q ∉ t.body) (hn : '\n' ∉ t.body) (hh : '#' ∈ t.body) :
    parseFolders E d (Folders.render ls ++ (t.render ++ rest)) = none := by
  apply parse_none_of_token E d _ t.render
  · rw [file_names ls _ h, joinLines_one _ _ (by
      unfold Quoted.render
      rcases hq with e | e <;> rw [e] <;> simpa using hn), lexWith_quoted _ _ _ hq hb nameLex_quote, hashes_tok_yes (by
      unfold Quoted.render
      simp [hh])]
    simp [tok]
  · refine get_none.2 fun g => ?_
    have hq2 : ∀ c ∈ (convDict.map fun e => (e.1.toList, e.2.toList)).map (·.1), '\'' ∉ c ∧ '"' ∉ c := by decide +kernel
    have := hq2 _ g
    have hm : t.q ∈ t.render.drop 2 := by
      unfold Quoted.render
      cases hbd : t.body with
      | nil => rw [hbd] at hh; cases hh
      | cons x xs => simp
    rcases hq with e | e
    · exact this.1 (e ▸ hm)
    · exact this.2 (e ▸ hm)

example (E : Str → Option IVal) (d : Dict IVal) : parseFolders E d "'/data/run#3/'\n".toList = none :=
  C167_hash_wrong E d [] (by simp) ⟨'\'', "/data/run#3/".toList⟩ "\n".toList (Or.inl rfl) (by decide) (by decide) (by decide)

/-- **C167 (refutation).** A value without a comment moves the values of all comments below: each gets the value before its own. -/
theorem C167_shift_wrong (E : Str → Option IVal) (d : Dict IVal) (v0 : Value) (h0 : v0.Wf) (es : List (String × Value))
    (h : ∀ e ∈ es, e.1 ∈ known.map (·.1) ∧ e.2.Wf) :
    parseFolders E d (Folders.render (.value v0 [] :: es.flatMap fun e => [.name e.1, .value e.2 []])) =
      some (filled d (v0 :: es.map (·.2)) (es.map (·.1))) := by
  rw [C167_read_partial]
  · have hn : names (es.flatMap fun e => [.name e.1, .value e.2 []]) = es.map (·.1) := by
      clear h
      induction es with
      | nil => rfl
      | cons e es ih => rw [List.flatMap_cons]; unfold names at *; simp [ih]
    have hv : values (es.flatMap fun e => [.name e.1, .value e.2 []]) = es.map (·.2) := by
      clear h hn
      induction es with
      | nil => rfl
      | cons e es ih => rw [List.flatMap_cons]; unfold values at *; simp [ih]
    rw [show values (Line.value v0 [] :: es.flatMap fun e => [.name e.1, .value e.2 []]) = v0 :: values (es.flatMap fun e => [.name e.1, .value e.2 []]) from rfl,
      show names (Line.value v0 [] :: es.flatMap fun e => [.name e.1, .value e.2 []]) = names (es.flatMap fun e => [.name e.1, .value e.2 []]) from rfl, hn, hv]
  · intro l hl
    rcases List.mem_cons.1 hl with rfl | hl
    · exact ⟨h0, fun c hc => by cases hc⟩
    · obtain ⟨e, he, hl⟩ := List.mem_flatMap.1 hl
      simp only [List.mem_cons, List.not_mem_nil, or_false] at hl
      rcases hl with rfl | rfl
      · exact (h e he).1
      · exact ⟨(h e he).2, fun c hc => by cases hc⟩

/-- The output directory takes the place of the base directory. -/
example (E : Str → Option IVal) : ∃ d', parseFolders E []
      "'/old'\n# MESA base folder/directory\n'/data'\n# MESA default output folder/directory\n'out'\n".toList = some d' ∧
    get d' "base_dir".toList = some (.v (.str "/old".toList)) ∧ get d' "mesa_output_dir".toList = some (.v (.str "/data".toList)) := by
  refine ⟨_, (C167_shift_wrong E [] (.text ⟨'\'', "/old".toList⟩) ⟨Or.inl rfl, by decide, by decide, by decide, by decide⟩
    [("MESA base folder/directory", .text ⟨'\'', "/data".toList⟩), ("MESA default output folder/directory", .text ⟨'\'', "out".toList⟩)] ?_), ?_, ?_⟩
  · intro e he
    simp only [List.mem_cons, List.not_mem_nil, or_false] at he
    rcases he with rfl | rfl
    · exact ⟨by decide +kernel, Or.inl rfl, by decide, by decide, by decide, by decide⟩
    · exact ⟨by decide +kernel, Or.inl rfl, by decide, by decide, by decide, by decide⟩
  · rfl
  · rfl

/-- **C167 (refutation).** A blank behind the first comma of a tuple ends the run. -/
theorem C167_blank_in_tuple_wrong (E : Str → Option IVal) (d : Dict IVal) (c : String) (hc : c ∈ known.map (·.1)) (t : Quoted)
    (hq : t.q = '\'' ∨ t.q = '"') (hb : Plain t.body) (rest : Str) :
    parseFolders E d (("# " ++ c).toList ++ '\n' :: '(' :: (t.render ++ ',' :: ' ' :: rest)) = none := by
  have hno := known_oneLine c hc
  have hno' : OneLine ('#' :: ' ' :: c.toList) := by unfold OneLine; simpa using hno
  have e : joinLines (("# " ++ c).toList ++ '\n' :: '(' :: (t.render ++ ',' :: ' ' :: rest)) =
      '#' :: ' ' :: (c.toList ++ '\n' :: '\n' :: '(' :: (t.render ++ ',' :: ' ' :: joinLines rest)) := by
    have := joinLines_line ('#' :: ' ' :: c.toList) ('(' :: (t.render ++ ',' :: ' ' :: rest)) hno'
    rw [if_neg (by simp)] at this
    have h2 : joinLines ('(' :: (t.render ++ ',' :: ' ' :: rest)) = '(' :: (t.render ++ ',' :: ' ' :: joinLines rest) := by
      have := joinLines_one ('(' :: (t.render ++ [',', ' '])) rest (by
        unfold Quoted.render
        have := plain_no hb '\n' (by decide)
        rcases hq with e | e <;> rw [e] <;> simpa using this)
      simpa using this
    rw [h2] at this
    simpa using this
  have hv : (lexWith valueLex .idle false (joinLines (("# " ++ c).toList ++ '\n' :: '(' :: (t.render ++ ',' :: ' ' :: rest)))).1.head? =
      some ('(' :: (t.render ++ [','])) := by
    rw [e, lexIdle, if_neg (by decide), if_pos (by decide),
      show ∀ s : Str, ' ' :: (c.toList ++ '\n' :: s) = (' ' :: c.toList) ++ '\n' :: s from fun _ => rfl,
      lexWith_skip valueLex (' ' :: c.toList) _ (by unfold OneLine; simpa using hno), lexWith_nl_value, lexIdle, if_neg (by decide),
      if_neg (by decide), if_pos (by decide),
      show t.render ++ ',' :: ' ' :: joinLines rest = (t.render ++ [',']) ++ ' ' :: joinLines rest by simp,
      lexWith_word, lexWord, if_pos (by decide)]
    · simp [tok]
    · intro x hx
      have hqq : ∀ q, (q = '\'' ∨ q = '"') → valueLex.ws q = false ∧ valueLex.comment q = false ∧ (valueLex.word q || isQuote q) = true := by
        rintro q (rfl | rfl) <;> decide
      unfold Quoted.render at hx
      simp only [List.mem_append, List.mem_cons, List.not_mem_nil, or_false] at hx
      rcases hx with (rfl | hx | rfl) | rfl
      · exact hqq _ hq
      · have hw : valueLex.word x = true := by
          have := plain_word (hb x hx)
          simp only [Bool.or_eq_true] at this
          simp only [valueLex, Bool.or_eq_true]
          tauto
        exact ⟨(word_ws hw).1, (word_ws hw).2, by rw [hw]; rfl⟩
      · exact hqq _ hq
      · decide
  have hl : litEval E ('(' :: (t.render ++ [','])) = none := by
    have hq' : isQuote t.q = true := by rcases hq with e | e <;> rw [e] <;> decide
    have : tupleGo .start [] false (t.render ++ [',']) = some none := by
      rw [Quoted.render, List.cons_append, tupleGo, if_pos hq', List.append_assoc, List.cons_append, List.nil_append,
        tupleGo_item _ _ _ _ _ _ (plain_quote hq hb) (plain_no hb _ (by decide)), tupleGo, if_pos rfl]
      rfl
    rw [litEval]
    simp only [show isQuote '(' = false by decide, Bool.false_eq_true, if_false, if_true]
    rw [this]
  unfold parseFolders
  simp only
  cases hn : nameList (joinLines (("# " ++ c).toList ++ '\n' :: '(' :: (t.render ++ ',' :: ' ' :: rest))) with
  | none => rfl
  | some ns =>
    rw [Option.bind_some]
    cases hvs : (lexWith valueLex .idle false (joinLines (("# " ++ c).toList ++ '\n' :: '(' :: (t.render ++ ',' :: ' ' :: rest)))).1 with
    | nil => rw [hvs] at hv; cases hv
    | cons v vs =>
      rw [hvs] at hv
      cases hv
      cases ns with
      | cons n ns => rw [fill, hl]; rfl
      | nil =>
        exfalso
        have hnm : ('#' :: ' ' :: c.toList) ∈ (lexWith nameLex .idle false (joinLines (("# " ++ c).toList ++ '\n' :: '(' ::
            (t.render ++ ',' :: ' ' :: rest)))).1.filter fun x => x.contains '#' := by
          have := congrArg Prod.fst (comment_name c.toList ('\n' :: '(' :: (t.render ++ ',' :: ' ' :: joinLines rest)) (known_words c hc))
          rw [e]
          unfold hashes at this
          rw [show (lexWith nameLex .idle false ('#' :: ' ' :: (c.toList ++ '\n' :: '\n' :: '(' :: (t.render ++ ',' :: ' ' :: joinLines rest)))).1.filter
            (fun x => x.contains '#') = _ from this]
          simp [tok]
        unfold nameList at hn
        simp only at hn
        obtain ⟨ns', h1, h2⟩ := Option.bind_eq_some_iff.1 hn
        split_ifs at h2
        cases h2
        cases hcs : (lexWith nameLex .idle false (joinLines (("# " ++ c).toList ++ '\n' :: '(' ::
            (t.render ++ ',' :: ' ' :: rest)))).1.filter fun x => x.contains '#' with
        | nil => rw [hcs] at hnm; cases hnm
        | cons _ _ => rw [hcs] at h1; exact absurd (mapM_nil _ _ h1) (by simp)

example (E : Str → Option IVal) (d : Dict IVal) : parseFolders E d "# MESA default profile substrings\n('profile', 'txt')\n".toList = none :=
  C167_blank_in_tuple_wrong E d "MESA default profile substrings" (by decide +kernel) ⟨'\'', "profile".toList⟩ (Or.inl rfl)
    (by unfold Plain; decide) "'txt')\n".toList

/-- **C167 (refutation).** Whether a value may be indented depends on what is in it: the first file is read, the second is not. -/
theorem C167_indent_wrong (E : Str → Option IVal) :
    parseFolders E [] "# MESA base folder/directory\n  '/star-1'\n# MESA default suffix\n'.dat'\n".toList =
      some [("base_dir".toList, .v (.str "/star-1".toList)), ("mesa_suffix".toList, .v (.str ".dat".toList))] ∧
    parseFolders E [] "# MESA base folder/directory\n  '/star-'\n# MESA default suffix\n'.dat'\n".toList = none := by
  constructor <;> rfl

/-- **C167 (refutation).** A dictionary given to be filled stays as it was. -/
theorem C167_given_dictionary_wrong (E : Str → Option IVal) (given d : Dict IVal) (text : Str) (g : Option (Dict IVal)) (d' : Dict IVal)
    (h : parseInfo E (some given) d text = some (g, d')) : g = some given ∧ parseFolders E d text = some d' := by
  unfold parseInfo at h
  obtain ⟨r, hr, e⟩ := Option.map_eq_some_iff.1 h
  cases e
  exact ⟨rfl, hr⟩

example (E : Str → Option IVal) : ∃ d', parseInfo E (some []) [] (Folders.render demoFile) = some (some [], d') ∧ d' ≠ [] :=
  ⟨_, by rw [parseInfo, C167_read_partial E [] demoFile demoFile_wf]; rfl, by decide⟩

end Verif.Load
