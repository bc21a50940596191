import Mathlib.Data.Real.Archimedean
import Mathlib.Data.List.Basic
import Mathlib.Algebra.BigOperators.Group.List.Basic
import Mathlib.Tactic.Linarith
/-!
# Model of HDF5 files and of the functions that write them

`aesolver/aesolver/data_handling/data_specific/hdf5_specific/overwrite_dataset.py`,
`…/create_group.py` and the writing methods of `…/hdf5_saver.py`.  A file is a tree of groups and data
sets, given by what is stored under each path; h5py and numpy are modelled by the functions `createDataset`,
`assign`, `requireGroup` and `cast`.  Numbers are exact reals, `none` is NaN.  Not modelled: attributes of
data sets, storage layout, failures of the file system.
-/
namespace Verif.Store

/-- Data types that occur. -/
inductive DType
  | f32 | f64 | i32 | i64 | bool
  deriving DecidableEq, Repr

/-- A number, `none` being NaN; False and True are 0 and 1. -/
abbrev Num := Option ℝ

/-- A numpy array: data type, shape and the entries in row-major order. -/
structure Arr where
  dtype : DType
  shape : List ℕ
  data : List Num

/-- An array has as many entries as its shape says. -/
def Arr.Valid (a : Arr) : Prop := a.data.length = a.shape.prod

/-- What is in a data set: nothing (the null data space of `h5py.Empty`) or an array. -/
inductive Content
  | null
  | array (shape : List ℕ) (data : List Num)

/-- A stored data set. -/
structure Dset where
  dtype : DType
  content : Content

/-- The data set that holds an array. -/
def Arr.stored (a : Arr) : Dset := ⟨a.dtype, .array a.shape a.data⟩

/-- `h5py.Empty('f')`. -/
def emptyF : Dset := ⟨.f32, .null⟩

inductive Node
  | group
  | dset (d : Dset)

/-- A path: the names between the slashes. -/
abbrev Path := List String

/-- A file: the node at each path (the root group is always there) and the attributes of groups. -/
structure File (A : Type) where
  node : Path → Option Node
  attr : Path → String → Option A

variable {A : Type}

/-- A file just created (mode `w`). -/
def File.new : File A := ⟨fun p => if p = [] then some .group else none, fun _ _ => none⟩

/-- Change the node at one path. -/
def File.set (f : File A) (p : Path) (n : Option Node) : File A :=
  { f with node := fun q => if q = p then n else f.node q }

/-- Exceptions that matter. -/
inductive Err
  | valueError | typeError | other

/-- Make the groups on the way to a path, as `create_dataset` and `require_group` do: an error when one
of them is a data set. -/
def File.groups (f : File A) : List Path → Except Err (File A)
  | [] => .ok f
  | p :: ps => match f.node p with
    | some (.dset _) => .error .other
    | some .group => f.groups ps
    | none => (f.set p (some .group)).groups ps

/-- The proper prefixes of a path that are groups, root first. -/
def parents (p : Path) : List Path := (List.range p.length).map p.take

/-- `File.create_dataset` at a path where nothing is stored (h5py raises ValueError otherwise). -/
def File.createDataset (f : File A) (p : Path) (d : Dset) : Except Err (File A) :=
  match f.groups (parents p) with
  | .error e => .error e
  | .ok f' => match f'.node p with
    | some _ => .error .valueError
    | none => .ok (f'.set p (some (.dset d)))

/-- `File.require_group` (create_group.py 10-28). -/
def File.requireGroup (f : File A) (p : Path) : Except Err (File A) := f.groups (parents p ++ [p])

/-- `del file[path]` for a data set. -/
def File.delete (f : File A) (p : Path) : File A := f.set p none

/-- Can h5py broadcast a shape to another one?  Both are given from the last dimension on: each dimension
must agree or be one, and superfluous ones must be one. -/
def bcastRev : List ℕ → List ℕ → Bool
  | [], _ => true
  | v :: vs, [] => v == 1 && bcastRev vs []
  | v :: vs, o :: os => (v == 1 || v == o) && bcastRev vs os

/-- Same, shapes in the usual order. -/
def bcast (v o : List ℕ) : Bool := bcastRev v.reverse o.reverse

/-- The shape aligned with `o`: superfluous ones dropped, missing ones added in front. -/
def align (v o : List ℕ) : List ℕ := List.replicate (o.length - v.length) 1 ++ v.drop (v.length - o.length)

/-- The entries of an array of shape `v` repeated to shape `o` (shapes of the same length). -/
def spread {β : Type} : List ℕ → List ℕ → List β → List β
  | v :: vs, o :: os, d => ((List.range o).map fun i =>
      spread vs os (if v = o then (d.drop (i * vs.prod)).take vs.prod else d)).flatten
  | _, _, d => d

/-- What happens on writing into a null data space (depends on the library version): nothing or an error. -/
inductive NullWrite
  | ignored | raises (e : Err)

/-- `dataset[...] = array` for an array of the same data type: nothing is written into a data set without
elements, a shape that cannot be broadcast raises TypeError. -/
def assignArr (nw : NullWrite) (old : Dset) (shape : List ℕ) (data : List Num) : Except Err Dset :=
  match old.content with
  | .null => match nw with
    | .ignored => .ok old
    | .raises e => .error e
  | .array oshape _ =>
    if oshape.prod = 0 then .ok old
    else if bcast shape oshape then .ok ⟨old.dtype, .array oshape (spread (align shape oshape) oshape data)⟩
    else .error .typeError

/-- A value to be stored: an array, or `None`, for which `h5py.Empty('f')` is stored. -/
abbrev Value := Option Arr

/-- `dataset[...] = value`.  An `Empty` object is first converted to the data type of the data set by
numpy, which raises TypeError for numbers but gives True for booleans. -/
def assign (nw : NullWrite) (old : Dset) : Value → Except Err Dset
  | some a => assignArr nw old a.shape a.data
  | none => match old.dtype with
    | .bool => assignArr nw old [] [some 1]
    | _ => .error .typeError

/-- The data set made from a value by `create_dataset` without a data type. -/
def made : Value → Dset
  | some a => a.stored
  | none => emptyF

/-- `overwrite_dataset` (overwrite_dataset.py 14-90) with no data type, as the saver calls it, for a path
that exists.  A value whose data type differs is written anew; ValueError and TypeError lead to a new data
set as well; a group is left alone. -/
def overwriteDataset (nw : NullWrite) (f : File A) (p : Path) (v : Value) : Except Err (File A) :=
  match f.node p with
  | none => .error .other
  | some .group => .ok f
  | some (.dset old) =>
    if (match v with | none => true | some a => old.dtype == a.dtype) then
      match assign nw old v with
      | .ok new => .ok (f.set p (some (.dset new)))
      | .error .valueError => (f.delete p).createDataset p (made v)
      | .error .typeError => (f.delete p).createDataset p (made v)
      | .error .other => .error .other
    else (f.delete p).createDataset p (made v)

/-- Modes in which files are opened (enum_hdf5_saver.py 14-51). -/
inductive Mode
  | write | append | update
  deriving DecidableEq

/-- `Hdf5FileOpenModeSelector.select_file_open_mode` (enum_hdf5_saver.py 21-51). -/
def selectMode (rw app : Bool) : Mode := if rw then .update else if app then .append else .write

/-- numpy's conversion of one number to a data type; NaN to an integer is left as it is (undefined in
numpy). -/
noncomputable def castNum : DType → Num → Num
  | .f32, x => x
  | .f64, x => x
  | .i32, x => x.map fun r => (((if 0 ≤ r then ⌊r⌋ else ⌈r⌉ : ℤ)) : ℝ)
  | .i64, x => x.map fun r => (((if 0 ≤ r then ⌊r⌋ else ⌈r⌉ : ℤ)) : ℝ)
  | .bool, some r => some (if r = 0 then 0 else 1)
  | .bool, none => some 1

/-- The data set made from a value by `create_dataset` with a data type. -/
noncomputable def madeAs (t : DType) : Value → Dset
  | some a => ⟨t, .array a.shape (if a.dtype = t then a.data else a.data.map (castNum t))⟩
  | none => ⟨t, .null⟩

/-- The data set made with an optional data type (hdf5_saver.py 174-184). -/
noncomputable def madeWith (t : Option DType) (v : Value) : Dset := match t with
  | none => made v
  | some t => madeAs t v

/-- `HDF5Saver._create_overwrite_dataset` (hdf5_saver.py 139-184). -/
noncomputable def createOverwrite (nw : NullWrite) (mode : Mode) (f : File A) (group : Path) (name : String) (v : Value)
    (t : Option DType) : Except Err (File A) :=
  let p := group ++ [name]
  match f.node p with
  | some _ => if mode = .update then overwriteDataset nw f p v else .ok f
  | none => f.createDataset p (madeWith t v)

end Verif.Store
