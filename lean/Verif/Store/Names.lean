import Verif.Inlist.Model
import Mathlib.Data.Nat.Digits.Defs
import Mathlib.Data.Nat.Digits.Lemmas
/-!
# Model of the names of saved and loaded files

`SaveDirectoryEnum.obtain_save_directory`, `SaveSubDirectory` (data_handling/enumeration_files/enum_generic.py),
`NumericalSaver._generate_save_name` (data_handling/storer.py), `HDF5Saver._adjust_file_path`
(data_handling/data_specific/hdf5_saver.py), `LoadFileName` (read_load_info/load_name_plots.py).
-/
namespace Verif.Store
open Verif.Inlist (Str greedyTo)

/-- The characters matched by `\w`: for ASCII characters the letters, the digits and the underscore; the other
characters are left open. -/
structure WordChars where
  is : Char → Bool
  ascii : ∀ c : Char, c.toNat < 128 → is c = (c.isAlpha || c.isDigit || c == '_')

/-- Decimal digits of a natural number (`str(n)`). -/
def decNat (n : ℕ) : Str := if n = 0 then ['0'] else (Nat.digits 10 n).reverse.map Nat.digitChar
/-- `str(n)`, and `astype(str)` of an integer array (hdf5_saver.py 83). -/
def dec (n : ℤ) : Str := if n < 0 then '-' :: decNat n.natAbs else decNat n.natAbs

/-- `'_'.join(...)`. -/
def joinU : List Str → Str
  | [] => []
  | [a] => a
  | a :: b :: l => a ++ '_' :: joinU (b :: l)

/-- Path to the save directory and suffix for the format 'hdf5' (enum_generic.py 30-35, 61-85): the test on line 76 looks
at the name of the format, which never ends in a slash. -/
def saveDirectory (base : Str) : Str := base ++ "/hdf5_output/".toList
/-- The suffix (enum_generic.py 34). -/
def suffix : Str := "h5".toList

/-- `_slash_subdir` (enum_generic.py 115-133). -/
def slashSubdir (s : Str) : Str :=
  if s = [] then []
  else if s.getLast? = some '/' then s.dropLast
  else if s.head? = some '/' then s
  else '/' :: s

/-- `generate_subdirectory_path` (enum_generic.py 135-151): the directory that is created (storer.py 201-202). -/
def subDirectory (base sub extra : Str) : Str :=
  if 0 < extra.length then saveDirectory base ++ slashSubdir sub ++ extra else saveDirectory base ++ slashSubdir sub

/-- `_generate_save_name` (storer.py 177-206). -/
def saveName (base sub extra name : Str) : Str := subDirectory base sub extra ++ name ++ '.' :: suffix

/-- `\w+` and `\.\w+` after a slash: `\w+` is greedy, and what follows it is no word character. -/
def tailMatch (w : WordChars) (s : Str) : Option (Str × Str × Str) :=
  let a := s.takeWhile w.is
  if a = [] then none
  else match s.dropWhile w.is with
    | '.' :: r =>
      let b := r.takeWhile w.is
      if b = [] then none else some (a, '.' :: b, r.dropWhile w.is)
    | _ => none

/-- A match of `(.*\/\w+)(\.\w+)` at the start: the two groups and the rest. -/
def matchAt (w : WordChars) (s : Str) : Option (Str × Str × Str) :=
  greedyTo '/' (fun acc r => (tailMatch w r).map fun t => (acc ++ '/' :: t.1, t.2.1, t.2.2)) [] s

/-- `re.sub` of the matches by `\1q\2`; the first argument bounds the number of steps. -/
def subAll (w : WordChars) (q : Str) : ℕ → Str → Str
  | 0, s => s
  | _ + 1, [] => []
  | n + 1, c :: cs => match matchAt w (c :: cs) with
    | some (a, b, rest) => a ++ q ++ b ++ subAll w q n rest
    | none => c :: subAll w q n cs

/-- `_qnr_string` (hdf5_saver.py 83). -/
def qnrString (k m : List ℤ) : Str := ['_', 'k', '_'] ++ joinU (k.map dec) ++ ['_', 'm', '_'] ++ joinU (m.map dec)

/-- `_adjust_file_path` (hdf5_saver.py 80-87). -/
def adjustPath (w : WordChars) (k m : List ℤ) (p : Str) : Str := subAll w (qnrString k m) (p.length + 1) p

/-- The path of the file that a run writes. -/
def savedPath (w : WordChars) (base sub extra name : Str) (k m : List ℤ) : Str :=
  adjustPath w k m (saveName base sub extra name)

/-! ## The names of the files that are loaded -/

/-- `_order_string` (load_name_plots.py 201-224) for three values. -/
def orderString (pre : Str) (v : List ℤ) : Option Str := match v with
  | a :: b :: c :: _ => some (pre ++ '_' :: dec a ++ '_' :: dec b ++ '_' :: dec c)
  | _ => none

/-- What the loading dictionary holds for one model: names in a list or a single name (load_name_plots.py 150-165); the
short names only, the standard format is not modelled. -/
structure LoadInfo (α : Type) where
  baseDir : Str
  outputDir : Str
  baseName : α
  specName : α
  suffix : α
  k : List ℤ
  m : List ℤ

/-- `generate_generic_name` for single names (load_name_plots.py 113-124). -/
def genericName (base spec suf : Str) (k m : List ℤ) : Option Str := do
  let ks ← orderString ['k'] k
  let ms ← orderString ['m'] m
  pure (base ++ (if 0 < spec.length then '_' :: spec else []) ++ '_' :: ks ++ '_' :: ms ++ '.' :: suf)

/-- `LoadFileName.__call__` for single names (load_name_plots.py 104-110). -/
def loadPath (l : LoadInfo Str) : Option Str :=
  (genericName l.baseName l.specName l.suffix l.k l.m).map fun n => l.baseDir ++ '/' :: l.outputDir ++ '/' :: n

/-- `LoadFileName.__call__` for lists of names, which are zipped (load_name_plots.py 104-108, 126-142). -/
def loadPaths (l : LoadInfo (List Str)) : Option (List Str) :=
  ((l.baseName.zip (l.specName.zip l.suffix)).mapM fun p => genericName p.1 p.2.1 p.2.2 l.k l.m).map fun ns =>
    ns.map fun n => l.baseDir ++ '/' :: l.outputDir ++ '/' :: n

end Verif.Store
