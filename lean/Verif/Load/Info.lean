import Verif.Load.InfoModel
import Verif.Load.Dirs
/-!
# C131, C132: information folders and loaders
-/
namespace Verif.Load
open Verif.Inlist (Str)
open Verif.Opts (Val Tbl find truthy At)

/-! ### Values of the document -/

theorem subs_cons (x : Val) (k : String) (p : List String) : subs x (k :: p) = (sub x k.toList).bind fun y => subs y p := rfl

/-- C131: `x[k1][k2]...` gives the value at this place of the document. -/
theorem C131_place (t : Tbl) (k : String) (p : List String) (v : Val) :
    subs (.tbl t) (k :: p) = some v ↔ At t ((k :: p).map (·.toList)) v := by
  induction p generalizing t k with
  | nil =>
    rw [subs_cons]
    constructor
    · intro h
      cases hf : find k.toList t with
      | none => rw [show sub (.tbl t) k.toList = find k.toList t from rfl, hf] at h; cases h
      | some y =>
        rw [show sub (.tbl t) k.toList = find k.toList t from rfl, hf] at h
        cases h
        exact At.here hf
    · intro h
      cases h with
      | here hf => rw [show sub (.tbl t) k.toList = find k.toList t from rfl, hf]; rfl
      | deep _ h2 => cases h2
  | cons q p ih =>
    rw [subs_cons]
    constructor
    · intro h
      cases hf : find k.toList t with
      | none => rw [show sub (.tbl t) k.toList = find k.toList t from rfl, hf] at h; cases h
      | some y =>
        rw [show sub (.tbl t) k.toList = find k.toList t from rfl, hf] at h
        cases y with
        | tbl s => exact At.deep hf ((ih s q).1 h)
        | _ => cases h
    · intro h
      cases h with
      | deep hf h2 =>
        rw [show sub (.tbl t) k.toList = find k.toList t from rfl, hf]
        exact (ih _ q).2 h2

/-- C131: an entry without a flag is the value at its place; one with a flag is, for an array, the tuple of its elements if the
flag is true (not empty, not zero) and the array itself if not. -/
theorem C131_value (t : Tbl) (key : String) (k : String) (p : List String) (f : String) (q : List String) :
    (∀ v, At t ((k :: p).map (·.toList)) v → infoValue (.tbl t) ⟨key, k :: p, none⟩ = some (.v v)) ∧
    (∀ l b, At t ((k :: p).map (·.toList)) (.arr l) → At t ((f :: q).map (·.toList)) (.bool b) →
      infoValue (.tbl t) ⟨key, k :: p, some (f :: q)⟩ = some (match b with
        | true => .tuple l
        | false => .v (.arr l))) ∧
    (infoValue (.tbl t) ⟨key, k :: p, none⟩ = none ↔ ∀ v, ¬ At t ((k :: p).map (·.toList)) v) := by
  refine ⟨?_, ?_, ?_⟩
  · intro v hv
    have := (C131_place t k p v).2 hv
    unfold infoValue
    dsimp only
    rw [this]
    rfl
  · intro l b hl hb
    have h1 := (C131_place t k p _).2 hl
    have h2 := (C131_place t f q _).2 hb
    unfold infoValue
    dsimp only
    rw [h1, h2]
    cases b <;> rfl
  · unfold infoValue
    dsimp only
    rw [Option.map_eq_none_iff]
    constructor
    · intro h v hv
      rw [(C131_place t k p v).2 hv] at h
      cases h
    · intro h
      cases hs : subs (.tbl t) (k :: p) with
      | none => rfl
      | some v => exact absurd ((C131_place t k p v).1 hs) (h v)

/-! ### The dictionary -/

/-- Every entry of the information folders is in the document. -/
def Complete (doc : Val) : Prop := ∀ i ∈ infoItems, ∃ x, infoValue doc i = some x

theorem infoLoop_none {doc : Val} : ∀ {items : List Info} {d : Dict IVal}, (∃ i ∈ items, infoValue doc i = none) → infoLoop doc d items = none := by
  intro items
  induction items with
  | nil => rintro d ⟨i, hi, _⟩; cases hi
  | cons j is ih =>
    rintro d ⟨i, hi, h⟩
    unfold infoLoop
    rcases List.mem_cons.1 hi with g | g
    · rw [← g, h]; rfl
    · cases hx : infoValue doc j with
      | none => rfl
      | some x => exact ih ⟨i, g, h⟩

/-- The value of an entry in the information dictionary. -/
def infoVal (doc : Val) (n : ℕ) : IVal := ((infoItems[n]?).bind (infoValue doc)).getD (.v .none)

theorem infoValue_at {doc : Val} (h : Complete doc) (n : ℕ) (i : Info) (hi : infoItems[n]? = some i) :
    infoValue doc i = some (infoVal doc n) := by
  obtain ⟨x, hx⟩ := h i (List.mem_of_getElem? hi)
  unfold infoVal
  rw [hi, Option.bind_some, hx]
  rfl

/-! ### Dictionaries of numbered values -/

/-- Replace the numbers of a dictionary by values. -/
def mapv (f : ℕ → IVal) (d : Dict ℕ) : Dict IVal := d.map fun e => (e.1, f e.2)

theorem any_mapv (f : ℕ → IVal) (d : Dict ℕ) (k : Str) :
    (mapv f d).any (fun e => e.1 == k) = d.any (fun e => e.1 == k) := by
  unfold mapv
  rw [List.any_map]
  rfl

theorem put_mapv (f : ℕ → IVal) (d : Dict ℕ) (k : Str) (n : ℕ) : put (mapv f d) k (f n) = mapv f (put d k n) := by
  unfold put
  rw [any_mapv]
  by_cases h : d.any (fun e => e.1 == k) = true
  · rw [if_pos h, if_pos h]
    unfold mapv
    rw [List.map_map, List.map_map]
    refine List.map_congr_left fun e _ => ?_
    dsimp only [Function.comp]
    by_cases g : (e.1 == k) = true
    · rw [if_pos g, if_pos g]
    · rw [if_neg g, if_neg g]
  · rw [if_neg h, if_neg h]
    unfold mapv
    rw [List.map_append]
    rfl

theorem pop_mapv (f : ℕ → IVal) (d : Dict ℕ) (k : String) : pop (mapv f d) k = (pop d k).map (mapv f) := by
  unfold pop
  rw [any_mapv]
  by_cases h : d.any (fun e => e.1 == k.toList) = true
  · rw [if_pos h, if_pos h, Option.map_some]
    unfold mapv
    rw [List.filter_map]
    rfl
  · rw [if_neg h, if_neg h]
    rfl

theorem pops_mapv (f : ℕ → IVal) (ks : List String) : ∀ d : Dict ℕ, pops (mapv f d) ks = (pops d ks).map (mapv f) := by
  induction ks with
  | nil => intro d; rfl
  | cons k ks ih =>
    intro d
    show (pop (mapv f d) k).bind (fun d => pops d ks) = ((pop d k).bind fun d => pops d ks).map (mapv f)
    rw [pop_mapv]
    cases pop d k with
    | none => rfl
    | some d' => exact ih d'

theorem get_mapv (f : ℕ → IVal) (d : Dict ℕ) (k : Str) : get (mapv f d) k = (get d k).map f := by
  induction d with
  | nil => rfl
  | cons e d ih =>
    show get ((e.1, f e.2) :: mapv f d) k = _
    rw [get_cons, get_cons]
    by_cases h : e.1 = k
    · rw [if_pos h, if_pos h]; rfl
    · rw [if_neg h, if_neg h, ih]

theorem gather_mapv (f : ℕ → IVal) (d : Dict ℕ) (l : List (String × String)) : gather (mapv f d) l = (gather d l).map (mapv f) := by
  induction l with
  | nil => rfl
  | cons e l ih =>
    obtain ⟨a, k⟩ := e
    unfold gather
    rw [get_mapv]
    cases get d k.toList with
    | none => rfl
    | some x =>
      rw [Option.map_some, Option.bind_some, Option.bind_some, ih]
      cases gather d l <;> rfl

theorem keys_mapv (f : ℕ → IVal) (d : Dict ℕ) : (mapv f d).map (·.1) = d.map (·.1) := by
  unfold mapv
  rw [List.map_map]
  rfl

/-- The numbered information dictionary. -/
def infoNum : ℕ → Dict ℕ → List Info → Dict ℕ
  | _, d, [] => d
  | n, d, i :: is => infoNum (n + 1) (put d i.key.toList n) is

theorem infoLoop_num (doc : Val) (f : ℕ → IVal) : ∀ (is : List Info) (n : ℕ) (d : Dict ℕ),
    (∀ j i, is[j]? = some i → infoValue doc i = some (f (n + j))) → infoLoop doc (mapv f d) is = some (mapv f (infoNum n d is)) := by
  intro is
  induction is with
  | nil => intro n d _; rfl
  | cons i is ih =>
    intro n d h
    unfold infoLoop infoNum
    rw [h 0 i rfl, Option.bind_some, Nat.add_zero, put_mapv]
    refine ih (n + 1) _ fun j i' hj => ?_
    rw [h (j + 1) i' hj]
    congr 2
    omega

/-- The numbered dictionary of the document. -/
def infoNums : Dict ℕ :=
  [("base_dir".toList, 0), ("mesa_output_dir".toList, 1), ("mesa_profile_substrings".toList, 2),
     ("mesa_suffix".toList, 3), ("gyre_base_dir".toList, 4), ("gyre_output_dir".toList, 5),
     ("gyre_detail_substring".toList, 6), ("gyre_summary_substring".toList, 7),
     ("poly_base_dir".toList, 8), ("poly_struct_dir".toList, 9),
     ("poly_struct_substrings".toList, 10), ("poly_struct_suffix".toList, 11),
     ("poly_mode_base_dir".toList, 12), ("poly_mode_dir".toList, 13),
     ("poly_mode_substrings".toList, 14), ("poly_summary_substring".toList, 15)]

/-- The values: sixteen from the document, then the flag and the quantum numbers. -/
def valOf (doc : Val) (l m n : IVal) (j : ℕ) : IVal :=
  if j < 16 then infoVal doc j else if j = 16 then .v (.bool false) else if j = 17 then l else if j = 18 then m
  else if j = 19 then n else .v (.bool true)

theorem infoDict_eq {doc : Val} (h : Complete doc) (l m n : IVal) : infoDict doc = some (mapv (valOf doc l m n) infoNums) := by
  have e : infoNum 0 [] infoItems = infoNums := by decide +kernel
  rw [← e]
  refine infoLoop_num doc (valOf doc l m n) infoItems 0 [] fun j i hj => ?_
  rw [infoValue_at h j i hj, Nat.zero_add]
  unfold valOf
  rw [if_pos]
  have := (List.getElem?_eq_some_iff.1 hj).1
  exact this

theorem loadingKwargs_mapv (doc : Val) (l m n : IVal) (d : Dict ℕ) : loadingKwargs (mapv (valOf doc l m n) d) l m n =
    mapv (valOf doc l m n) (put (put (put (put d "infer_dir".toList 16) "search_l".toList 17) "search_m".toList 18) "search_n".toList 19) := by
  rw [← put_mapv, ← put_mapv, ← put_mapv, ← put_mapv]
  rfl

/-- C131: all sixteen entries are needed, also those of no consequence. -/
theorem C131_all_needed (doc : Val) : (infoDict doc).isSome ↔ Complete doc := by
  constructor
  · intro h i hi
    cases hv : infoValue doc i with
    | some x => exact ⟨x, rfl⟩
    | none =>
      rw [show infoDict doc = none from infoLoop_none ⟨i, hi, hv⟩] at h
      cases h
  · intro h
    rw [infoDict_eq h (.v .none) (.v .none) (.v .none)]
    rfl

theorem callLoader_ok {args : Dict IVal} (ks : List Str) (hk : args.map (·.1) = ks) (h : ks.Nodup ∧ ∀ k ∈ ks, k ∈ loaderParams) :
    callLoader args = some args := by
  unfold callLoader
  rw [hk, if_pos h]

/-! ### Loaders -/

/-- The options of a loader for stars and where they are in the document. -/
def starSpec : List Info :=
  [⟨"base_dir", ["information_folders", "MESA", "default", "base_dir"], none⟩,
   ⟨"mesa_output_dir", ["information_folders", "MESA", "default", "output_dir"], none⟩,
   ⟨"mesa_profile_substrings", ["information_folders", "MESA", "selection", "substrings"],
    some ["information_folders", "MESA", "selection", "substrings_to_tuple"]⟩,
   ⟨"mesa_suffix", ["information_folders", "MESA", "selection", "suffix"], none⟩,
   ⟨"gyre_detail_substring", ["information_folders", "GYRE", "selection", "detail_substrings"],
    some ["information_folders", "GYRE", "selection", "detail_substrings_to_tuple"]⟩,
   ⟨"gyre_summary_substring", ["information_folders", "GYRE", "selection", "summary_substring"], none⟩]

/-- The options of a loader for polytropes and where they are in the document. -/
def polySpec : List Info :=
  [⟨"base_dir", ["information_folders", "MESA", "default", "base_dir"], none⟩,
   ⟨"polytrope_model_output_dir", ["information_folders", "POLY", "structure", "default", "output_dir"], none⟩,
   ⟨"polytrope_oscillation_output_dir", ["information_folders", "POLY", "modes", "default", "output_dir"], none⟩,
   ⟨"polytrope_model_suffix", ["information_folders", "POLY", "structure", "selection", "suffix"], none⟩,
   ⟨"polytrope_model_substrings", ["information_folders", "POLY", "structure", "selection", "substrings"],
    some ["information_folders", "POLY", "structure", "selection", "substrings_to_tuple"]⟩,
   ⟨"polytrope_oscillation_substrings", ["information_folders", "POLY", "modes", "selection", "detail_substrings"],
    some ["information_folders", "POLY", "modes", "selection", "detail_substrings_to_tuple"]⟩]

/-- The loader has these options from the document, these quantum numbers, and no others but `more`. -/
def HasOptions (doc : Val) (a : Dict IVal) (spec : List Info) (l m n : IVal) (more : List (String × IVal)) : Prop :=
  (∀ i ∈ spec, get a i.key.toList = infoValue doc i) ∧ get a "infer_dir".toList = some (.v (.bool false)) ∧
  get a "search_l".toList = some l ∧ get a "search_m".toList = some m ∧ get a "search_n".toList = some n ∧
  (∀ e ∈ more, get a e.1.toList = some e.2) ∧
  ∀ k, get a k ≠ none → k ∈ strs (spec.map (·.key) ++ ["infer_dir", "search_l", "search_m", "search_n"] ++ more.map (·.1))

/-- Values of a numbered dictionary agree with the document. -/
theorem hasOptions_num {doc : Val} (h : Complete doc) (l m n : IVal) (spec : List Info) (num : List ℕ) (d : Dict ℕ)
    (pre : Dict IVal) (more : List (String × IVal))
    (hspec : spec.length = num.length ∧ ∀ j < spec.length, ∀ i k, spec[j]? = some i → num[j]? = some k →
      k < 16 ∧ (infoItems[k]?).map (fun q => (q.path, q.flag)) = some (i.path, i.flag) ∧ i.key.toList ∉ pre.map (·.1) ∧
      get d i.key.toList = some k)
    (hq : (∀ e ∈ [("infer_dir", 16), ("search_l", 17), ("search_m", 18), ("search_n", 19)],
      e.1.toList ∉ pre.map (·.1) ∧ get d e.1.toList = some e.2))
    (hm : ∀ e ∈ more, get (pre ++ mapv (valOf doc l m n) d) e.1.toList = some e.2)
    (hk : ∀ k ∈ pre.map (·.1) ++ d.map (·.1), k ∈ strs (spec.map (·.key) ++ ["infer_dir", "search_l", "search_m", "search_n"] ++ more.map (·.1))) :
    HasOptions doc (pre ++ mapv (valOf doc l m n) d) spec l m n more := by
  have step : ∀ k j, k ∉ pre.map (·.1) → get d k = some j → get (pre ++ mapv (valOf doc l m n) d) k = some (valOf doc l m n j) := by
    intro k j hp hd
    have : get (pre ++ mapv (valOf doc l m n) d) k = get (mapv (valOf doc l m n) d) k := by
      clear hm hk hspec hq
      induction pre with
      | nil => rfl
      | cons e pre ih =>
        rw [List.map_cons, List.mem_cons, not_or] at hp
        rw [List.cons_append, get_cons, if_neg fun q => hp.1 q.symm]
        exact ih hp.2
    rw [this, get_mapv, hd]
    rfl
  refine ⟨?_, ?_, ?_, ?_, ?_, hm, ?_⟩
  · intro i hi
    obtain ⟨j, hj, e⟩ := List.getElem_of_mem hi
    have hj' : j < num.length := hspec.1 ▸ hj
    obtain ⟨a, b, c, g⟩ := hspec.2 j hj i (num[j]) (by rw [List.getElem?_eq_getElem hj, e]) (List.getElem?_eq_getElem hj')
    rw [step _ _ c g]
    cases hq : infoItems[num[j]]? with
    | none => rw [hq] at b; cases b
    | some q =>
      rw [hq] at b
      have b1 := Option.some.inj b
      have e1 : infoValue doc i = infoValue doc q := by
        unfold infoValue
        rw [← (Prod.mk.inj b1).1, ← (Prod.mk.inj b1).2]
      rw [e1, infoValue_at h _ q hq]
      unfold valOf
      rw [if_pos a]
  · exact step _ _ (hq ("infer_dir", 16) (by decide)).1 (hq ("infer_dir", 16) (by decide)).2
  · exact step _ _ (hq ("search_l", 17) (by decide)).1 (hq ("search_l", 17) (by decide)).2
  · exact step _ _ (hq ("search_m", 18) (by decide)).1 (hq ("search_m", 18) (by decide)).2
  · exact step _ _ (hq ("search_n", 19) (by decide)).1 (hq ("search_n", 19) (by decide)).2
  · intro k hne
    refine hk k ?_
    by_contra hc
    refine hne (get_none.2 fun q => hc ?_)
    rw [List.map_append, keys_mapv] at q
    exact q

/-- The numbered arguments of a loader for a star. -/
def starNums : Dict ℕ :=
  [("base_dir".toList, 0), ("mesa_output_dir".toList, 1), ("mesa_profile_substrings".toList, 2), ("mesa_suffix".toList, 3),
   ("gyre_detail_substring".toList, 6), ("gyre_summary_substring".toList, 7), ("infer_dir".toList, 16), ("search_l".toList, 17),
   ("search_m".toList, 18), ("search_n".toList, 19)]

theorem starArgs_spec {doc : Val} (h : Complete doc) (l m n x : IVal) :
    HasOptions doc ([("gyre_output_dir".toList, x)] ++ mapv (valOf doc l m n) starNums) starSpec l m n [("gyre_output_dir", x)] := by
  refine hasOptions_num h l m n starSpec [0, 1, 2, 3, 6, 7] starNums _ _ ⟨rfl, ?_⟩ ?_ ?_ ?_
  · intro j hj i k hi hk
    have all : ∀ j < 6, ((starSpec[j]?).bind fun i => ([0, 1, 2, 3, 6, 7][j]?).map fun k =>
      decide (k < 16 ∧ (infoItems[k]?).map (fun q => (q.path, q.flag)) = some (i.path, i.flag) ∧
        i.key.toList ∉ ["gyre_output_dir".toList] ∧ get starNums i.key.toList = some k)) = some true := by decide +kernel
    have := all j hj
    rw [hi, hk] at this
    exact of_decide_eq_true (Option.some.inj this)
  · show ∀ e ∈ [("infer_dir", 16), ("search_l", 17), ("search_m", 18), ("search_n", 19)],
      e.1.toList ∉ ["gyre_output_dir".toList] ∧ get starNums e.1.toList = some e.2
    decide +kernel
  · intro e he
    rw [List.mem_singleton] at he
    subst he
    rw [List.singleton_append, get_cons, if_pos rfl]
  · show ∀ k ∈ ["gyre_output_dir".toList] ++ starNums.map (·.1),
      k ∈ strs (starSpec.map (·.key) ++ ["infer_dir", "search_l", "search_m", "search_n"] ++ ["gyre_output_dir"])
    decide +kernel

theorem starCall (f : ℕ → IVal) (x : IVal) :
    callLoader (("gyre_output_dir".toList, x) :: mapv f starNums) = some (("gyre_output_dir".toList, x) :: mapv f starNums) := by
  refine callLoader_ok ("gyre_output_dir".toList :: starNums.map (·.1)) ?_ (by decide +kernel)
  rw [List.map_cons, keys_mapv]

theorem solverInfo_eq {doc : Val} (h : Complete doc) (l m n : IVal) :
    solverInfo doc = some (mapv (valOf doc l m n) (infoNums.filter fun e => e.1 != "gyre_base_dir".toList && e.1 != "gyre_output_dir".toList)) := by
  unfold solverInfo
  rw [infoDict_eq h l m n, Option.bind_some, pops_mapv]
  have : pops infoNums ["gyre_base_dir", "gyre_output_dir"] =
      some (infoNums.filter fun e => e.1 != "gyre_base_dir".toList && e.1 != "gyre_output_dir".toList) := by decide +kernel
  rw [this]
  rfl

/-- C131: a solver for a star makes two loaders, with the options of the document, the quantum numbers of the combination, and the
directories of adiabatic and non-adiabatic modes. No option is unknown to the loader and none is given twice. -/
theorem C131_star (doc : Val) (h : Complete doc) (base ad nad : Option Str) (pct : Str) (l m n : IVal) :
    ∃ a b, solverLoaders false doc base ad nad pct l m n = some [a, b] ∧
      HasOptions doc a starSpec l m n [("gyre_output_dir", .v (.str (shown base ++ ad.getD ("output_rot_".toList ++ pct) ++ "/".toList)))] ∧
      HasOptions doc b starSpec l m n
        [("gyre_output_dir", .v (.str (shown base ++ nad.getD ("output_nad_rot_".toList ++ pct) ++ "/".toList)))] := by
  refine ⟨_, _, ?_, starArgs_spec h l m n _, starArgs_spec h l m n _⟩
  unfold solverLoaders
  rw [solverInfo_eq h l m n, Option.bind_some, if_neg (by decide)]
  unfold starLoaders
  rw [loadingKwargs_mapv, pops_mapv]
  have e : pops (put (put (put (put (infoNums.filter fun e => e.1 != "gyre_base_dir".toList && e.1 != "gyre_output_dir".toList)
      "infer_dir".toList 16) "search_l".toList 17) "search_m".toList 18) "search_n".toList 19)
      ["poly_base_dir", "poly_struct_dir", "poly_struct_substrings", "poly_struct_suffix",
    "poly_mode_base_dir", "poly_mode_dir", "poly_mode_substrings", "poly_summary_substring"] = some starNums := by decide +kernel
  rw [e, Option.map_some, Option.bind_some, starCall, Option.bind_some, starCall]
  rfl

/-- The numbered arguments of a loader for a polytrope. -/
def polyNums : Dict ℕ :=
  [("base_dir".toList, 0), ("polytrope_model_output_dir".toList, 9), ("polytrope_oscillation_output_dir".toList, 13),
   ("infer_dir".toList, 16), ("search_l".toList, 17), ("search_m".toList, 18), ("search_n".toList, 19),
   ("polytrope_model_suffix".toList, 11), ("polytrope_model_substrings".toList, 10), ("polytrope_oscillation_substrings".toList, 14),
   ("use_polytrope_data".toList, 20)]

theorem polyArgs_spec {doc : Val} (h : Complete doc) (l m n : IVal) :
    HasOptions doc (mapv (valOf doc l m n) polyNums) polySpec l m n [("use_polytrope_data", .v (.bool true))] := by
  refine hasOptions_num h l m n polySpec [0, 9, 13, 11, 10, 14] polyNums [] _ ⟨rfl, ?_⟩ ?_ ?_ ?_
  · intro j hj i k hi hk
    have all : ∀ j < 6, ((polySpec[j]?).bind fun i => ([0, 9, 13, 11, 10, 14][j]?).map fun k =>
      decide (k < 16 ∧ (infoItems[k]?).map (fun q => (q.path, q.flag)) = some (i.path, i.flag) ∧
        i.key.toList ∉ ([] : List Str) ∧ get polyNums i.key.toList = some k)) = some true := by decide +kernel
    have := all j hj
    rw [hi, hk] at this
    exact of_decide_eq_true (Option.some.inj this)
  · show ∀ e ∈ [("infer_dir", 16), ("search_l", 17), ("search_m", 18), ("search_n", 19)],
      e.1.toList ∉ ([] : List Str) ∧ get polyNums e.1.toList = some e.2
    decide +kernel
  · intro e he
    rw [List.mem_singleton] at he
    subst he
    rw [List.nil_append, get_mapv]
    have : get polyNums "use_polytrope_data".toList = some 20 := by decide +kernel
    rw [this]
    rfl
  · show ∀ k ∈ ([] : List Str) ++ polyNums.map (·.1),
      k ∈ strs (polySpec.map (·.key) ++ ["infer_dir", "search_l", "search_m", "search_n"] ++ ["use_polytrope_data"])
    decide +kernel

theorem solverLoaders_poly {doc : Val} (h : Complete doc) (base ad nad : Option Str) (pct : Str) (l m n : IVal) :
    solverLoaders true doc base ad nad pct l m n = some [mapv (valOf doc l m n) polyNums] := by
  unfold solverLoaders
  rw [solverInfo_eq h l m n, Option.bind_some, if_pos rfl]
  unfold polyLoader
  rw [loadingKwargs_mapv, gather_mapv]
  have e : gather (put (put (put (put (infoNums.filter fun e => e.1 != "gyre_base_dir".toList && e.1 != "gyre_output_dir".toList)
      "infer_dir".toList 16) "search_l".toList 17) "search_m".toList 18) "search_n".toList 19) polyArgs = some (polyNums.take 10) := by
    decide +kernel
  rw [e, Option.map_some, Option.bind_some]
  have : mapv (valOf doc l m n) (polyNums.take 10) ++ [("use_polytrope_data".toList, .v (.bool true))] = mapv (valOf doc l m n) polyNums := rfl
  rw [this, callLoader_ok (polyNums.map (·.1)) (keys_mapv _ _) (by decide +kernel)]
  rfl

/-- C131: a solver for a polytrope makes one loader, with the options of the document, the quantum numbers of the combination and the
flag for polytropes; no option is unknown or given twice. -/
theorem C131_poly (doc : Val) (h : Complete doc) (base ad nad : Option Str) (pct : Str) (l m n : IVal) :
    ∃ a, solverLoaders true doc base ad nad pct l m n = some [a] ∧
      HasOptions doc a polySpec l m n [("use_polytrope_data", .v (.bool true))] :=
  ⟨_, solverLoaders_poly h base ad nad pct l m n, polyArgs_spec h l m n⟩

/-- C131: with an incomplete document there are no loaders: an error, for stars also when the missing entry is one of polytropes. -/
theorem C131_incomplete (doc : Val) (h : ¬ Complete doc) (poly : Bool) (base ad nad : Option Str) (pct : Str) (l m n : IVal) :
    solverLoaders poly doc base ad nad pct l m n = none := by
  have : infoDict doc = none := by
    cases hd : infoDict doc with
    | none => rfl
    | some d => exact absurd ((C131_all_needed doc).1 (by rw [hd]; rfl)) h
  unfold solverLoaders solverInfo
  rw [this]
  rfl

/-- C131: the comparison of adiabatic and non-adiabatic modes makes its loaders with the same options as the solver. -/
theorem C131_comparer (doc : Val) (h : Complete doc) (ad nad : Str) (l m n : IVal) :
    ∃ d a b, comparisonInfo doc = some d ∧ comparerLoaders d ⟨ad, some nad⟩ l m n = some (a, b) ∧
      HasOptions doc a starSpec l m n [("gyre_output_dir", .v (.str ad))] ∧
      HasOptions doc b starSpec l m n [("gyre_output_dir", .v (.str nad))] := by
  have hc : comparisonInfo doc = some (mapv (valOf doc l m n) (starNums.take 6)) := by
    unfold comparisonInfo
    rw [infoDict_eq h l m n, Option.map_some]
    have e : infoNums.filter (fun e => e.1 ∈ strs ["base_dir", "mesa_output_dir", "mesa_profile_substrings", "mesa_suffix",
      "gyre_detail_substring", "gyre_summary_substring"]) = starNums.take 6 := by decide +kernel
    rw [← e]
    unfold mapv
    rw [List.filter_map]
    rfl
  refine ⟨_, _, _, hc, ?_, starArgs_spec h l m n _, starArgs_spec h l m n _⟩
  unfold comparerLoaders
  have e : put (put (put (put (starNums.take 6) "infer_dir".toList 16) "search_l".toList 17) "search_m".toList 18)
      "search_n".toList 19 = starNums := by decide +kernel
  rw [loadingKwargs_mapv, e]
  dsimp only
  rw [starCall, Option.bind_some, starCall]
  rfl

/-- The folder of the modes and where it is in the document. -/
def gyreFolder : Info := ⟨"gyre_output_dir", ["information_folders", "GYRE", "default", "output_dir"], none⟩

/-- C131: the information for the modes of a star, completed by quantum numbers, makes a loader with the options of the document
and the folder of the modes that is there. -/
theorem C131_load_info (doc : Val) (h : Complete doc) (l m n : IVal) :
    ∃ d a, loadInfo doc = some d ∧ callLoader (loadingKwargs d l m n) = some a ∧
      HasOptions doc a (starSpec ++ [gyreFolder]) l m n [] := by
  let nums : Dict ℕ := [("base_dir".toList, 0), ("mesa_output_dir".toList, 1), ("mesa_profile_substrings".toList, 2),
     ("mesa_suffix".toList, 3), ("gyre_output_dir".toList, 5), ("gyre_detail_substring".toList, 6), ("gyre_summary_substring".toList, 7)]
  let full : Dict ℕ := nums ++ [("infer_dir".toList, 16), ("search_l".toList, 17), ("search_m".toList, 18), ("search_n".toList, 19)]
  have hl : loadInfo doc = some (mapv (valOf doc l m n) nums) := by
    unfold loadInfo
    rw [infoDict_eq h l m n, Option.map_some]
    have e : infoNums.filter (fun e => e.1 ∈ strs ["base_dir", "mesa_output_dir", "mesa_profile_substrings", "mesa_suffix",
      "gyre_detail_substring", "gyre_summary_substring", "gyre_output_dir"]) = nums := by decide +kernel
    rw [← e]
    unfold mapv
    rw [List.filter_map]
    rfl
  have e : put (put (put (put nums "infer_dir".toList 16) "search_l".toList 17) "search_m".toList 18) "search_n".toList 19 = full := by
    decide +kernel
  have hs : HasOptions doc ([] ++ mapv (valOf doc l m n) full) (starSpec ++ [gyreFolder]) l m n [] := by
    refine hasOptions_num h l m n (starSpec ++ [gyreFolder]) [0, 1, 2, 3, 6, 7, 5] full [] [] ⟨rfl, ?_⟩ ?_ ?_ ?_
    · intro j hj i k hi hk
      have all : ∀ j < 7, (((starSpec ++ [gyreFolder])[j]?).bind fun i => ([0, 1, 2, 3, 6, 7, 5][j]?).map fun k =>
        decide (k < 16 ∧ (infoItems[k]?).map (fun q => (q.path, q.flag)) = some (i.path, i.flag) ∧
          i.key.toList ∉ ([] : List Str) ∧ get full i.key.toList = some k)) = some true := by decide +kernel
      have := all j hj
      rw [hi, hk] at this
      exact of_decide_eq_true (Option.some.inj this)
    · show ∀ e ∈ [("infer_dir", 16), ("search_l", 17), ("search_m", 18), ("search_n", 19)],
        e.1.toList ∉ ([] : List Str) ∧ get full e.1.toList = some e.2
      decide +kernel
    · intro e he
      cases he
    · show ∀ k ∈ ([] : List Str) ++ full.map (·.1),
        k ∈ strs ((starSpec ++ [gyreFolder]).map (·.key) ++ ["infer_dir", "search_l", "search_m", "search_n"] ++ ([] : List String))
      decide +kernel
  refine ⟨_, _, hl, ?_, hs⟩
  rw [loadingKwargs_mapv, e]
  exact callLoader_ok (full.map (·.1)) (keys_mapv _ _) (by decide +kernel)

end Verif.Load
