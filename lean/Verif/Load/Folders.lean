import Verif.Load.InfoModel
/-!
# Model of the older format of the information folders

`aesolver/aesolver/read_load_info/read_info_dirs.py` (I below) and `enumeration_files/enumeration_read.py` (J), for a run without
a TOML inlist.  A file is its text after the translation of line ends; an exception and the end of the program are `none`.  The
non-POSIX `shlex.shlex` tokenizer of the standard library is modelled as in `Verif.Inlist`, with the character classes of I:224-243,
and with its tokens delivered one by one, so that an unclosed quote raises only when the token is asked for.
-/
namespace Verif.Load
open Verif.Inlist (Str LState joinLines isDig isWs isQuote)
open Verif.Opts (Val)

/-- Character classes of a `shlex` object. -/
structure LexCfg where
  comment : Char → Bool
  word : Char → Bool
  ws : Char → Bool

/-- `shlex.wordchars` of the standard library (non-POSIX). -/
def stdWord (c : Char) : Bool := ('a' ≤ c && c ≤ 'z') || ('A' ≤ c && c ≤ 'Z') || isDig c || c == '_'

/-- The tokenizer of the values (I:222, 225, 227-231, 237). -/
def valueLex : LexCfg where
  comment c := c == '#'
  word c := stdWord c || c == ',' || c == '.' || c == '(' || c == ')'
  ws := isWs

/-- The tokenizer of the comments (I:223, 226, 233-235, 242). -/
def nameLex : LexCfg where
  comment _ := false
  word c := stdWord c || c == '#' || c == ' ' || c == '/'
  ws c := c == '\n'

/-- A token in front of the others. -/
def tok (t : Str) (r : List Str × Bool) : List Str × Bool := (t :: r.1, r.2)

/-- The tokens of a `shlex` object, and whether asking for the next one raises `ValueError` (a quote is not closed).  The flag of the
arguments says that the rest of a comment line is being skipped; a comment does not end the word it follows. -/
def lexWith (L : LexCfg) : LState → Bool → Str → List Str × Bool
  | .idle, _, [] => ([], false)
  | .word acc, _, [] => ([acc], false)
  | .quote _ _, _, [] => ([], true)
  | st, true, c :: cs => if c = '\n' then lexWith L st false cs else lexWith L st true cs
  | .idle, false, c :: cs =>
    if L.ws c then lexWith L .idle false cs
    else if L.comment c then lexWith L .idle true cs
    else if L.word c then lexWith L (.word [c]) false cs
    else if isQuote c then lexWith L (.quote c [c]) false cs
    else tok [c] (lexWith L .idle false cs)
  | .word acc, false, c :: cs =>
    if L.ws c then tok acc (lexWith L .idle false cs)
    else if L.comment c then lexWith L (.word acc) true cs
    else if L.word c || isQuote c then lexWith L (.word (acc ++ [c])) false cs
    else tok acc (tok [c] (lexWith L .idle false cs))
  | .quote q acc, false, c :: cs =>
    if c = q then tok (acc ++ [c]) (lexWith L .idle false cs)
    else lexWith L (.quote q (acc ++ [c])) false cs

/-- `CONVERSION_DICT` (J:23-42). -/
def convDict : List (String × String) :=
  [("MESA base folder/directory", "base_dir"),
   ("MESA default output folder/directory", "mesa_output_dir"),
   ("MESA default profile substrings", "mesa_profile_substrings"),
   ("MESA default suffix", "mesa_suffix"),
   ("GYRE base folder/directory", "gyre_base_dir"),
   ("GYRE default output folder/directory", "gyre_output_dir"),
   ("GYRE default detail substring", "gyre_detail_substring"),
   ("GYRE default summary substring", "gyre_summary_substring"),
   ("POLYTROPE structure base folder/directory", "poly_base_dir"),
   ("POLYTROPE structure default output folder/directory", "poly_struct_dir"),
   ("POLYTROPE default structure substrings", "poly_struct_substrings"),
   ("POLYTROPE default structure suffix", "poly_struct_suffix"),
   ("POLYTROPE mode base folder/directory", "poly_mode_base_dir"),
   ("POLYTROPE mode default output folder/directory", "poly_mode_dir"),
   ("POLYTROPE mode default detail substring", "poly_mode_substrings"),
   ("POLYTROPE mode default summary substring", "poly_summary_substring")]

/-- `InfoDictConverter.convert` (J:44-66); an unknown key ends the program. -/
def convert (c : Str) : Option Str := get (convDict.map fun e => (e.1.toList, e.2.toList)) c

/-- The names (I:245-249): comprehension over the tokens with a `#`. -/
def nameList (text : Str) : Option (List Str) :=
  let r := lexWith nameLex .idle false text
  ((r.1.filter fun x => x.contains '#').mapM fun x => convert (x.drop 2)).bind fun ns => if r.2 then none else some ns

/-- States inside the brackets of a tuple: an item or the closing bracket is next, inside a quoted item, after an item. -/
inductive TState where
  | start
  | item (q : Char) (acc : Str)
  | after

/-- The value of the items in brackets: without a comma the brackets mean nothing. -/
def bracketed (comma : Bool) (items : List Str) : IVal := match comma, items with
  | false, [s] => .v (.str s)
  | _, l => .tuple (l.map .str)

/-- `ast.literal_eval` behind an opening bracket: quoted texts separated by commas up to the closing bracket.  `some none` is a
`SyntaxError` (the text ends inside the brackets), `none` means that the text is not of this form. -/
def tupleGo : TState → List Str → Bool → Str → Option (Option IVal)
  | _, _, _, [] => some none
  | .start, acc, comma, c :: cs =>
    if isQuote c then tupleGo (.item c []) acc comma cs
    else if c = ')' ∧ cs = [] then some (some (.tuple (acc.map .str)))
    else none
  | .item q s, acc, comma, c :: cs =>
    if c = q then tupleGo .after (acc ++ [s]) comma cs
    else if c = '\\' then none
    else tupleGo (.item q (s ++ [c])) acc comma cs
  | .after, acc, comma, c :: cs =>
    if c = ',' then tupleGo .start acc true cs
    else if c = ')' ∧ cs = [] then
      some (some (bracketed comma acc))
    else none

/-- A quoted text: the rest after the opening quote. -/
def quotedGo (q : Char) : Str → Str → Option Str
  | _, [] => none
  | acc, c :: cs => if c = q then (if cs = [] then some acc else none) else if c = '\\' ∨ c = '\n' then none
    else quotedGo q (acc ++ [c]) cs

/-- `ast.literal_eval` (I:253) on a quoted text without escapes and on a bracketed list of such texts; `E` is what it returns for
all other texts, `none` when it raises.  (A text in triple quotes cannot be a token that starts with its quote.) -/
def litEval (E : Str → Option IVal) (s : Str) : Option IVal := match s with
  | [] => none
  | c :: cs =>
    if isQuote c then
      match quotedGo c [] cs with
      | some t => some (.v (.str t))
      | none => E s
    else if c = '(' then
      match tupleGo .start [] false cs with
      | some r => r
      | none => E s
    else E s

/-- The loop over the values and names (I:251-259): `zip` asks for a value first. -/
def fill (E : Str → Option IVal) : Dict IVal → List Str → Bool → List Str → Option (Dict IVal)
  | d, [], err, _ => if err then none else some d
  | d, _ :: _, _, [] => some d
  | d, v :: vs, err, n :: ns => (litEval E v).bind fun x => fill E (put d n x) vs err ns

/-- `_parse_custom_info_files` (I:202-263) on the text of the file, for a handler whose dictionary is `d`. -/
def parseFolders (E : Str → Option IVal) (d : Dict IVal) (text : Str) : Option (Dict IVal) :=
  let s := joinLines text
  (nameList s).bind fun ns => fill E d (lexWith valueLex .idle false s).1 (lexWith valueLex .idle false s).2 ns

/-- `parse_info_directories` (I:345-366) without a TOML inlist: the dictionary given by the caller afterwards, and that of the
handler.  The former is only replaced by a local one if there is none (I:212-213). -/
def parseInfo (E : Str → Option IVal) (given : Option (Dict IVal)) (d : Dict IVal) (text : Str) :
    Option (Option (Dict IVal) × Dict IVal) :=
  (parseFolders E d text).map fun r => (given, r)

end Verif.Load
